import Verif.Proof.Narrow
import Verif.Proof.Top
import Verif.Props.Framing
/-!
# The machine's word size
-/
namespace Perf
variable {β γ : Type} [ParseBuf β] [Lawful β] [ParseBuf γ] [LawfulEof γ] {O : Type}

/-! ## The main model is one of the machines -/

theorem P.sliceOn_wide {T : Type} {δ : Type} [ParseBuf δ] (e : Elem T) (item : P δ T) (n : Nat) :
    P.sliceOn Platform.wide e item n = P.slice e item n := rfl

theorem Platform.asUsize_wide (x : U64) : Platform.wide.asUsize x = x.toNat := Nat.mod_eq_of_lt x.isLt

section
variable {δ : Type} [ParseBuf δ]

theorem parseNamespacesOn_wide : (parseNamespacesOn Platform.wide : P δ (Namespaces Cow)) = parseNamespaces := by
  unfold parseNamespacesOn parseNamespaces
  simp only [Platform.asUsize_wide, P.sliceOn_wide]
  rfl

theorem parseValuesOn_wide : (parseValuesOn Platform.wide : P δ (ReadGroup Cow)) = parseValues := by
  unfold parseValuesOn parseValues parseReadGroupOn parseReadGroup
  simp only [Platform.asUsize_wide, P.sliceOn_wide]
  rfl

theorem parseCallchainOn_wide : (parseCallchainOn Platform.wide : P δ (Cow U64)) = parseCallchain := by
  unfold parseCallchainOn parseCallchain
  simp only [Platform.asUsize_wide, P.sliceOn_wide]
  rfl

theorem parseLbrOn_wide (b : Bool) : (parseLbrOn Platform.wide b : P δ _) = parseLbr b := by
  unfold parseLbrOn parseLbr
  simp only [Platform.asUsize_wide, P.sliceOn_wide]
  rfl

theorem parseStackUserOn_wide : (parseStackUserOn Platform.wide : P δ (Cow Byte)) = parseStackUser := by
  unfold parseStackUserOn parseStackUser
  simp only [Platform.asUsize_wide]
  rfl

theorem parseAuxDataOn_wide : (parseAuxDataOn Platform.wide : P δ (Cow Byte)) = parseAuxData := by
  unfold parseAuxDataOn parseAuxData
  simp only [Platform.asUsize_wide]
  rfl

theorem parseSampleOn_wide : (parseSampleOn Platform.wide : P δ (Sample Cow)) = parseSample := by
  unfold parseSampleOn parseSample
  rw [parseValuesOn_wide, parseCallchainOn_wide, parseStackUserOn_wide, parseAuxDataOn_wide]
  simp only [parseLbrOn_wide]
  rfl

theorem P.dispatchOn_wide (v : Visitor Cow O) (md : Metadata) : (P.dispatchOn Platform.wide v md : P δ O) = P.dispatch v md := by
  unfold P.dispatchOn
  split
  · rename_i h
    unfold P.dispatch
    simp only [h, parseSampleOn_wide]
  · rename_i h
    unfold P.dispatch
    simp only [h, parseNamespacesOn_wide]
  · rfl

/-- **C83** On a 64-bit machine the parsers are those of the main model. -/
theorem c83_wide (v : Visitor Cow O) : (P.recordOn Platform.wide v : P δ O) = P.record v := by
  unfold P.recordOn P.record P.recordWithHeaderOn P.recordWithHeader P.recordImplOn P.recordImpl
  simp only [P.dispatchOn_wide]
  rfl
end

/-! ## Narrower machines -/
section
variable {w : Platform}

/-- The machine changes nothing for the other record types. -/
theorem P.dispatchOn_other {δ : Type} [ParseBuf δ] (w : Platform) (v : Visitor Cow O) {md : Metadata} (h9 : md.ty.toNat ≠ 9)
    (h16 : md.ty.toNat ≠ 16) : (P.dispatchOn w v md : P δ O) = P.dispatch v md := by
  unfold P.dispatchOn
  split
  · exact absurd ‹_› h9
  · exact absurd ‹_› h16
  · rfl

theorem Near.dispatch {B : Nat} (hw : w.bits ≤ 64) (hBw : B < w.limit) (v : Visitor Cow O) (md : Metadata) :
    Near w B (P.dispatch v md : P γ O) (P.dispatchOn w v md) := by
  by_cases h9 : md.ty.toNat = 9
  · unfold P.dispatchOn P.dispatch
    simp only [h9]
    exact Near.bind Safe.sample (Near.sample hw hBw) fun _ _ => Near.refl' _
  by_cases h16 : md.ty.toNat = 16
  · unfold P.dispatchOn P.dispatch
    simp only [h16]
    exact Near.bind Safe.namespaces (Near.namespaces hw hBw) fun _ _ => Near.refl' _
  rw [P.dispatchOn_other w v h9 h16]
  exact Near.refl' _

/-- What is left open about the result `o'` of another machine, given the result `o` of the main model. -/
def NearOut (w : Platform) (f : Flat) (ty : U32) (o o' : Out β O) : Prop :=
  o' = o ∨ (ty = 9#32 ∨ ty = 16#32) ∧ (∃ e, o.res = .error (.err e)) ∧ (HasBig w f ∨ ∃ e, o'.res = .error (.err e))

theorem HasBig.of_region {w : Platform} {f : Flat} {len : Nat} {m : U16} (h : HasBig w ((f.region len).withMisc m)) {n : Nat} (hn : len ≤ n) :
    HasBig w (f.region n) := by
  obtain ⟨k, hk, hb⟩ := h
  have hk' : k + 8 ≤ (f.s.bytes.take len).length := hk
  have hb' : w.limit ≤ (f.cfg.endian.conv64 (((f.s.bytes.take len).drop k).take 8)).toNat := hb
  rw [List.length_take] at hk'
  refine ⟨k, ?_, ?_⟩
  · show k + 8 ≤ (f.s.bytes.take n).length
    rw [List.length_take]; omega
  · show w.limit ≤ (f.cfg.endian.conv64 (((f.s.bytes.take n).drop k).take 8)).toNat
    rw [List.drop_take, List.take_take, Nat.min_eq_left (by omega)] at hb' ⊢
    exact hb'

theorem P.recordWithHeaderOn_near (hw : 16 ≤ w.bits ∧ w.bits ≤ 64) {p : Parser β} {f : Flat} (hp : RepP p f) (hf : w.Fits f.cfg)
    (v : Visitor Cow O) (h : Header) :
    NearOut w (f.region (h.size.toNat - 8)) h.type_ (P.recordWithHeader v h p) (P.recordWithHeaderOn w v h p) := by
  obtain ⟨_, _, h3⟩ := P.metadataWithHeader_run hp h
  unfold P.recordWithHeader P.recordWithHeaderOn
  rcases hs : Spec.metadataWithHeader h f with e | ⟨⟨r, md⟩, f'⟩
  · rw [hs] at h3
    cases e with
    | stuck => exact h3.elim
    | err e =>
      rw [P.bind_err (P.run_eq _ h3), P.bind_err (P.run_eq _ h3)]
      exact .inl rfl
  · rw [hs] at h3
    obtain ⟨c, hc, hreg⟩ := h3
    rw [P.bind_ok (P.run_eq _ hc), P.bind_ok (P.run_eq _ hc)]
    have hmd : md.ty = h.type_ ∧ ∃ len, len ≤ h.size.toNat - 8 ∧ r = f.region len := by
      rcases Spec.metadata_cases h f with ⟨_, a⟩ | ⟨_, _, a⟩ | ⟨_, _, _, a⟩ | ⟨_, _, _, _, a⟩ | ⟨_, _, _, _, sid, i, _, a⟩ <;>
        rw [a] at hs <;> cases hs
      · exact ⟨rfl, _, Nat.le_refl _, rfl⟩
      · exact ⟨rfl, _, Nat.sub_le _ _, rfl⟩
    obtain ⟨hty, len, hlen, hr⟩ := hmd
    have hrl : r.s.bytes.length < w.limit := by
      have h1 : r.s.bytes.length ≤ h.size.toNat - 8 := by
        rw [hr]; show (f.s.bytes.take len).length ≤ _; rw [List.length_take]; omega
      have h2 := h.size_lt
      have h3 : 2 ^ 16 ≤ w.limit := Nat.pow_le_pow_right (by decide) hw.1
      omega
    have key : ∀ {γ : Type} [ParseBuf γ] [LawfulEof γ] (q : Parser γ), RepP q r → HintLe q.data r.s.bytes.length →
        ∀ st : Parser β, NearOut w (f.region (h.size.toNat - 8)) h.type_ (P.recordImpl q v md st) (P.recordImplOn w q v md st) := by
      intro γ _ _ q hq hh st
      unfold P.recordImpl P.recordImplOn
      have hrep := hq.withMisc hreg.zero md.misc
      have hfits : w.Fits (r.withMisc md.misc).cfg := by
        rw [hr]; exact hf
      by_cases hne : md.ty.toNat ≠ 9 ∧ md.ty.toNat ≠ 16
      · rw [P.dispatchOn_other w v hne.1 hne.2]; exact .inl rfl
      have h916 : h.type_ = 9#32 ∨ h.type_ = 16#32 := by
        rw [hty] at hne
        have : h.type_.toNat = 9 ∨ h.type_.toNat = 16 := by omega
        rcases this with h' | h'
        · exact .inl (BitVec.eq_of_toNat_eq h')
        · exact .inr (BitVec.eq_of_toNat_eq h')
      rcases Near.dispatch hw.2 hrl v md _ _ hrep (Nat.le_refl _) hh hfits with h1 | ⟨⟨e, h1⟩, h2⟩
      · left
        rcases hd : P.dispatch v md (Parser.new q.data (q.config.withMisc md.misc)) with ⟨res, q', l⟩
        rw [hd] at h1
        cases res with
        | error e => rw [P.bind_err (P.onChild_err hd st), P.bind_err (P.onChild_err h1 st)]
        | ok a => rw [P.bind_ok (P.onChild_ok hd st), P.bind_ok (P.onChild_ok h1 st)]
      · refine .inr ⟨h916, ⟨e, ?_⟩, ?_⟩
        · rw [P.bind_err (P.onChild_err (P.run_eq _ h1) st)]
        · rcases h2 with h2 | ⟨e', h2⟩
          · rw [hr] at h2
            exact .inl (h2.of_region hlen)
          · right
            exact ⟨e', by rw [P.bind_err (P.onChild_err (P.run_eq _ h2) st)]⟩
    have wrap : ∀ {o o' : Out β O} (l : List Nat), NearOut w (f.region (h.size.toNat - 8)) h.type_ o o' →
        NearOut w (f.region (h.size.toNat - 8)) h.type_ ⟨o.res, o.st, l ++ o.log⟩ ⟨o'.res, o'.st, l ++ o'.log⟩ := by
      intro o o' l hn
      rcases hn with hn | hn
      · rw [hn]; exact .inl rfl
      · exact .inr hn
    simp only
    cases has : c.data.buf.asSlice with
    | some s =>
      obtain ⟨hsr, hsd⟩ := hreg.asSlice has
      exact wrap _ (key (Parser.new s c.config) hsr (by
        intro x hx
        have : some s.data.length = some x := hx
        simp only [Option.some.injEq] at this
        rw [← this, hsd]; exact Nat.le_refl _) (P.metadataWithHeader h p).st)
    | none =>
      exact wrap _ (key c hreg.rep (by
        intro x hx
        have : some c.data.buf.len = some x := hx
        simp only [Option.some.injEq] at this
        rw [← this, hreg.hint]; exact Nat.le_refl _) (P.metadataWithHeader h p).st)

/-- **C83** From any buffer: the machine changes neither the result, nor the state of the parser, nor the memory requested,
unless the record is a SAMPLE or NAMESPACES record that the 64-bit machine rejects; and then the other machine rejects it
too, or its body has eight consecutive bytes that make a number beyond `usize::MAX`. -/
theorem c83_record_partial (hw : 16 ≤ w.bits ∧ w.bits ≤ 64) {p : Parser β} {f : Flat} (hp : RepP p f) (hf : w.Fits f.cfg)
    (v : Visitor Cow O) : P.recordOn w v p = P.record v p ∨
      ∃ h, ((parseHeader : P β Header) p).res = .ok h ∧ (h.type_ = 9#32 ∨ h.type_ = 16#32) ∧
        (∃ e, (P.record v p).res = .error (.err e)) ∧
        ((∃ e, (P.recordOn w v p).res = .error (.err e)) ∨
          ∃ k, 8 ≤ k ∧ k + 8 ≤ f.s.bytes.length ∧ k + 8 ≤ h.size.toNat ∧
            2 ^ w.bits ≤ (f.cfg.endian.conv64 ((f.s.bytes.drop k).take 8)).toNat) := by
  rcases Nat.lt_or_ge f.s.bytes.length 8 with h | h
  · left
    unfold P.recordOn P.record
    rw [P.bind_err (P.header_short hp h), P.bind_err (P.header_short hp h)]
  · obtain ⟨q, h1, h2, _⟩ := P.header_run hp h
    have e1 : P.record v p = P.recordWithHeader v (headerAt f) q := by unfold P.record; rw [P.bind_nil h1]
    have e2 : P.recordOn w v p = P.recordWithHeaderOn w v (headerAt f) q := by unfold P.recordOn; rw [P.bind_nil h1]
    rw [e1, e2]
    rcases P.recordWithHeaderOn_near hw h2 hf v (headerAt f) with h3 | ⟨h3, h4, h5⟩
    · exact .inl h3
    · refine .inr ⟨headerAt f, by rw [h1], h3, h4, ?_⟩
      rcases h5 with ⟨k, hk, hb⟩ | h5
      · right
        have hk' : k + 8 ≤ ((f.s.bytes.drop 8).take ((headerAt f).size.toNat - 8)).length := hk
        have hb' : w.limit ≤ (f.cfg.endian.conv64 ((((f.s.bytes.drop 8).take ((headerAt f).size.toNat - 8)).drop k).take 8)).toNat := hb
        rw [List.length_take, List.length_drop] at hk'
        rw [List.drop_take, List.drop_drop, List.take_take, Nat.min_eq_left (by omega)] at hb'
        exact ⟨8 + k, by omega, by omega, by omega, hb'⟩
      · exact .inl h5

/-- **C83** What a 64-bit machine returns, the other machine returns as well. -/
theorem c83_same_partial (hw : 16 ≤ w.bits ∧ w.bits ≤ 64) {p : Parser β} {f : Flat} (hp : RepP p f) (hf : w.Fits f.cfg)
    (v : Visitor Cow O) {o : O} (ho : (P.record v p).res = .ok o) : P.recordOn w v p = P.record v p := by
  rcases c83_record_partial hw hp hf v with h | ⟨_, _, _, ⟨e, h⟩, _⟩
  · exact h
  · rw [ho] at h; cases h

/-- **C83** For a slice, and the machines with 32 bits that align `u64` to 8 bytes. -/
theorem c83_slice_partial (addr : Nat) (data : List Byte) (cfg : ParseConfig) (hwf : cfg.Wf) :
    P.parseRecordOn .arm32 (Parser.new (⟨addr, data⟩ : Slice) cfg) = P.parseRecord (Parser.new (⟨addr, data⟩ : Slice) cfg) ∨
      (∃ e, (P.parseRecord (Parser.new (⟨addr, data⟩ : Slice) cfg)).res = .error (.err e)) ∧
      ((∃ e, (P.parseRecordOn .arm32 (Parser.new (⟨addr, data⟩ : Slice) cfg)).res = .error (.err e)) ∨
        ∃ k, 8 ≤ k ∧ k + 8 ≤ data.length ∧ 2 ^ 32 ≤ (cfg.endian.conv64 ((data.drop k).take 8)).toNat) := by
  rcases c83_record_partial (w := .arm32) (by decide) (RepP.slice addr data hwf) (.inl rfl) (recordVisitor Cow) with
    h | ⟨_, _, _, h1, h2⟩
  · exact .inl h
  · refine .inr ⟨h1, ?_⟩
    rcases h2 with h2 | ⟨k, h3, h4, _, h5⟩
    · exact .inl h2
    · exact .inr ⟨k, h3, h4, h5⟩

/-- **C83** For a reader that answers its `read` calls in any way, likewise. -/
theorem c83_reader_partial (es : List ReadEvent) (cfg : ParseConfig) (hwf : cfg.Wf) {r : Record Cow}
    (hr : (P.parseRecord (Parser.new (⟨[], es⟩ : BufReader) cfg)).res = .ok r) :
    (P.parseRecordOn .arm32 (Parser.new (⟨[], es⟩ : BufReader) cfg)).res = .ok r := by
  have := c83_same_partial (w := .arm32) (by decide) (RepP.reader es hwf) (.inl rfl) (recordVisitor Cow) hr
  show (P.recordOn .arm32 (recordVisitor Cow) _).res = _
  rw [this]; exact hr

end

/-! ## Every machine -/
namespace Safe
variable {w : Platform} {B : Nat} {T : Type}

theorem sliceOn {e : Elem T} (hs : 0 < e.size) {Q : T → Prop} {item : P β T} (h : Safe B Q item) (n : Nat) :
    Safe B (fun c => c.data.length = n) (P.sliceOn w e item n) := by
  unfold P.sliceOn
  refine Safe.bind (Q := fun r => ∀ l, r = some l → l.length = n) ?_ fun r hr => ?_
  · unfold P.sliceDirectOn
    refine Safe.bind Safe.config fun cfg _ => ?_
    refine Safe.ite (fun _ => Safe.pure (by simp)) fun _ => ?_
    refine Safe.ite (fun _ => Safe.fail (.inl rfl)) fun _ => ?_
    refine Safe.bind (Safe.bytesDirect _) fun r _ => ?_
    match r with
    | none => exact Safe.pure (by simp)
    | some (addr, bs) =>
      refine Safe.ite (fun _ => Safe.pure ?_) fun _ => Safe.pure (by simp)
      intro l hl
      simp only [Option.some.injEq] at hl
      rw [← hl, Elem.decodeAll_length]
  · match r with
    | some l => exact Safe.pure (hr l rfl)
    | none => exact Safe.bind (Safe.repeated hs h n) fun v hv => Safe.pure hv

theorem u64sOn (n : Nat) : Safe B (fun _ => True) (P.sliceOn w U64.elem parseU64 n : P β (Cow U64)) :=
  (sliceOn (by decide) Safe.u64 n).triv

theorem namespacesOn : Safe B (fun _ => True) (parseNamespacesOn w : P β (Namespaces Cow)) :=
  Safe.bind Safe.u32 fun _ _ => Safe.bind Safe.u32 fun _ _ => Safe.bind Safe.u64 fun _ _ =>
    Safe.bind (sliceOn (by decide) Safe.namespaceEntry _) fun _ _ => Safe.pure trivial

theorem readGroupOn : Safe B (fun _ => True) (parseReadGroupOn w : P β (ReadGroup Cow)) := by
  refine Safe.bind Safe.config fun _ _ => Safe.ite (fun _ => Safe.fail (.inr rfl)) fun _ =>
    Safe.ite (fun _ => Safe.fail (.inr rfl)) fun _ => ?_
  refine Safe.bind Safe.u64 fun _ _ => Safe.bind (Safe.parseIf fun _ => Safe.u64) fun _ _ =>
    Safe.bind (Safe.parseIf fun _ => Safe.u64) fun _ _ => ?_
  exact Safe.ite (fun _ => Safe.fail (.inl rfl)) fun _ => Safe.bind (u64sOn _) fun _ _ => Safe.pure trivial

theorem registersOn (mask : U64) : Safe B (fun _ => True) (parseRegistersOn w mask : P β (Registers Cow)) :=
  Safe.bind Safe.u64 fun _ _ => Safe.bind (u64sOn _) fun _ _ => Safe.pure trivial

theorem valuesOn : Safe B (fun _ => True) (parseValuesOn w : P β (ReadGroup Cow)) :=
  Safe.bind Safe.config fun _ _ => Safe.ite (fun _ => readGroupOn) fun _ =>
    Safe.bind Safe.readValue fun _ _ => Safe.pure trivial

theorem lbrOn (b : Bool) : Safe B (fun _ => True) (parseLbrOn w b : P β (Cow BranchEntry × Option U64)) :=
  Safe.bind Safe.u64 fun _ _ => Safe.bind (Safe.parseIf fun _ => Safe.u64) fun _ _ =>
    Safe.bind (sliceOn (by decide) Safe.branchEntry _) fun _ _ => Safe.pure trivial

theorem stackUserOn : Safe B (fun _ => True) (parseStackUserOn w : P β (Cow Byte)) := by
  refine Safe.bind Safe.u64 fun _ _ => Safe.bind (Safe.bytes _) fun _ _ => ?_
  refine Safe.bind (Q := fun _ => True) (Safe.ite (fun _ => Safe.pure trivial) fun _ => Safe.u64) fun _ _ => ?_
  exact Safe.ite (fun _ => Safe.fail (.inl rfl)) fun _ => Safe.pure trivial

theorem sampleOn : Safe B (fun _ => True) (parseSampleOn w : P β (Sample Cow)) := by
  unfold parseSampleOn
  refine Safe.bind Safe.config fun cfg _ => ?_
  iterate 10 refine Safe.bind (Safe.parseIf fun _ => by first | exact Safe.u64 | exact Safe.u32 | exact Safe.cpu) fun _ _ => ?_
  refine Safe.bind (Safe.parseIf fun _ => valuesOn) fun _ _ => ?_
  refine Safe.bind (Safe.parseIf fun _ => Safe.bind Safe.u64 fun _ _ => u64sOn _) fun _ _ => ?_
  refine Safe.bind (Safe.parseIf fun _ => Safe.raw) fun _ _ => ?_
  refine Safe.bind (Safe.parseIf fun _ => lbrOn _) fun _ _ => ?_
  refine Safe.bind (Safe.parseIf fun _ => Safe.bind Safe.config fun _ _ => registersOn _) fun _ _ => ?_
  refine Safe.bind (Safe.parseIf fun _ => stackUserOn) fun _ _ => ?_
  iterate 3 refine Safe.bind (Safe.parseIf fun _ => Safe.u64) fun _ _ => ?_
  refine Safe.bind (Safe.parseIf fun _ => Safe.bind Safe.config fun _ _ => registersOn _) fun _ _ => ?_
  iterate 4 refine Safe.bind (Safe.parseIf fun _ => Safe.u64) fun _ _ => ?_
  refine Safe.bind (Safe.parseIf fun _ => Safe.bind Safe.u64 fun _ _ => (Safe.bytes _).triv) fun _ _ => ?_
  exact Safe.pure trivial

end Safe

/-- The body of a record on any machine: the visitor's answer for some record, or an error. -/
theorem P.dispatchOn_safe (w : Platform) (v : Visitor Cow O) (hv : v.Total) (md : Metadata) {B : Nat} {p : Parser γ} {f : Flat}
    (hp : RepP p f) (hB : f.s.bytes.length ≤ B) (hh : HintLe p.data B) :
    Returns (P.dispatchOn w v md p).res ∧ LogLe (P.dispatchOn w v md p).log B := by
  have key : ∀ {α : Type} {m : P γ α} {g : α → Except Fault O}, Safe B (fun _ => True) m → (∀ a, Returns (g a)) →
      Returns ((m >>= fun r => P.ofExcept (g r)) p).res ∧ LogLe ((m >>= fun r => P.ofExcept (g r)) p).log B := by
    intro α m g hm hg
    obtain ⟨hl, hr⟩ := hm p f hp hB hh
    rcases hres : (m p).res with e | a
    · rw [hres] at hr
      rw [P.bind_err (P.run_eq _ hres)]
      match e, hr with
      | .err e, _ => exact ⟨.inr ⟨e, rfl⟩, hl⟩
    · rw [P.bind_ok (P.run_eq _ hres)]
      refine ⟨hg a, ?_⟩
      show LogLe ((m p).log ++ []) B
      rw [List.append_nil]; exact hl
  by_cases h9 : md.ty.toNat = 9
  · unfold P.dispatchOn
    simp only [h9]
    exact key Safe.sampleOn fun r => hv (.sample r) md
  by_cases h16 : md.ty.toNat = 16
  · unfold P.dispatchOn
    simp only [h16]
    exact key Safe.namespacesOn fun r => hv (.namespaces r) md
  · rw [P.dispatchOn_other w v h9 h16, P.dispatch_eq]
    exact key ((Safe.body md.ty).mono fun _ _ => trivial) fun r => hv r md

/-- **C83** On every machine a record yields a value or an error, and no request for memory exceeds the input (or 16 KiB). -/
theorem c83_returns (w : Platform) {p : Parser β} {f : Flat} (hp : RepP p f) (v : Visitor Cow O) (hv : v.Total) :
    Returns (P.recordOn w v p).res ∧ ∀ n ∈ (P.recordOn w v p).log, n ≤ max 16384 f.s.bytes.length := by
  rcases Nat.lt_or_ge f.s.bytes.length 8 with h | h
  · unfold P.recordOn
    rw [P.bind_err (P.header_short hp h)]
    exact ⟨.inr ⟨_, rfl⟩, nofun⟩
  obtain ⟨q, h1, h2, _⟩ := P.header_run hp h
  have e2 : P.recordOn w v p = P.recordWithHeaderOn w v (headerAt f) q := by unfold P.recordOn; rw [P.bind_nil h1]
  rw [e2]
  obtain ⟨_, hl, h3⟩ := P.metadataWithHeader_run h2 (headerAt f)
  have hadv : (f.adv 8).s.bytes.length ≤ f.s.bytes.length := by simp
  have hl := hl.mono hadv
  unfold P.recordWithHeaderOn
  rcases hs : Spec.metadataWithHeader (headerAt f) (f.adv 8) with e | ⟨⟨r, md⟩, f'⟩
  · rw [hs] at h3
    cases e with
    | stuck => exact h3.elim
    | err e =>
      rw [P.bind_err (P.run_eq _ h3)]
      exact ⟨.inr ⟨_, rfl⟩, hl⟩
  · rw [hs] at h3
    obtain ⟨c, hc, hreg⟩ := h3
    have hlen := Nat.le_trans (Spec.metadata_length hs) hadv
    rw [P.bind_ok (P.run_eq _ hc)]
    have key : ∀ {γ : Type} [ParseBuf γ] [LawfulEof γ] (q : Parser γ), RepP q r → HintLe q.data r.s.bytes.length →
        ∀ st : Parser β, Returns (P.recordImplOn w q v md st).res ∧ LogLe (P.recordImplOn w q v md st).log f.s.bytes.length := by
      intro γ _ _ q hq hh st
      obtain ⟨h4, h5⟩ := P.dispatchOn_safe w v hv md (hq.withMisc hreg.zero md.misc) hlen
        (fun x hx => Nat.le_trans (hh x hx) hlen)
      unfold P.recordImplOn
      rcases hd : P.dispatchOn w v md (Parser.new q.data (q.config.withMisc md.misc)) with ⟨res, q', l⟩
      rw [hd] at h4 h5
      cases res with
      | error e =>
        rw [P.bind_err (P.onChild_err hd st)]
        rcases h4 with ⟨_, h4⟩ | ⟨x, h4⟩
        · cases h4
        · cases h4; exact ⟨.inr ⟨x, rfl⟩, h5⟩
      | ok a =>
        rw [P.bind_ok (P.onChild_ok hd st)]
        refine ⟨.inl ⟨a, rfl⟩, ?_⟩
        show LogLe (l ++ []) _
        rw [List.append_nil]; exact h5
    simp only
    cases has : c.data.buf.asSlice with
    | some s =>
      obtain ⟨hsr, hsd⟩ := hreg.asSlice has
      obtain ⟨k1, k2⟩ := key (Parser.new s c.config) hsr (by
        intro x hx
        have : some s.data.length = some x := hx
        simp only [Option.some.injEq] at this
        rw [← this, hsd]; exact Nat.le_refl _) (P.metadataWithHeader (headerAt f) q).st
      exact ⟨k1, hl.append k2⟩
    | none =>
      obtain ⟨k1, k2⟩ := key c hreg.rep (by
        intro x hx
        have : some c.data.buf.len = some x := hx
        simp only [Option.some.injEq] at this
        rw [← this, hreg.hint]; exact Nat.le_refl _) (P.metadataWithHeader (headerAt f) q).st
      exact ⟨k1, hl.append k2⟩

theorem P.recordImplOn_st {δ ε : Type} [ParseBuf δ] [ParseBuf ε] (w : Platform) (q : Parser ε) (v : Visitor Cow O) (md : Metadata)
    (st : Parser δ) : (P.recordImplOn w q v md st).st = st := by
  unfold P.recordImplOn
  rcases hd : P.dispatchOn w v md (Parser.new q.data (q.config.withMisc md.misc)) with ⟨res, q', l⟩
  cases res with
  | error e => rw [P.bind_err (P.onChild_err hd st)]
  | ok a => rw [P.bind_ok (P.onChild_ok hd st)]; rfl

/-- **C83** From any buffer at all, every machine leaves the parser where the 64-bit machine leaves it: a record is passed
over as a whole, whatever is in it. -/
theorem c83_framing {δ : Type} [ParseBuf δ] (w : Platform) (v : Visitor Cow O) (p : Parser δ) :
    (P.recordOn w v p).st = (P.record v p).st := by
  have key : ∀ (w : Platform) (h : Header) (q : Parser δ),
      (P.recordWithHeaderOn w v h q).st = (P.metadataWithHeader h q).st := by
    intro w h q
    unfold P.recordWithHeaderOn
    rcases hm : P.metadataWithHeader h q with ⟨r, st, l⟩
    cases r with
    | error e => rw [P.bind_err hm]
    | ok a =>
      rw [P.bind_ok hm]
      simp only
      cases a.1.data.buf.asSlice with
      | some s => exact P.recordImplOn_st w _ v a.2 st
      | none => exact P.recordImplOn_st w _ v a.2 st
  rw [← c83_wide]
  unfold P.recordOn
  rcases hh : (parseHeader : P δ Header) p with ⟨r, st, l⟩
  cases r with
  | error e => rw [P.bind_err hh, P.bind_err hh]
  | ok h =>
    rw [P.bind_ok hh, P.bind_ok hh]
    show (P.recordWithHeaderOn w v h st).st = (P.recordWithHeaderOn Platform.wide v h st).st
    rw [key, key]

/-! ## Where the machines differ -/

/-- A little-endian configuration with this `sample_type`. -/
def narrowCfg (st : U64) : ParseConfig :=
  { ParseConfig.default (.little .little) .little with config := ⟨ConfigFlags.new 0#64 st false false 0#16, 0#64, 0#64⟩ }

/-- The call chain of the sample in `bs` at address `addr`, or nothing if it is rejected. -/
def chainOn (w : Platform) (addr : Nat) (bs : List Byte) : Option (Option (List U64)) :=
  match (P.parseRecordOn w (Parser.new (⟨addr, bs⟩ : Slice) (narrowCfg 0x20#64))).res with
  | .ok (.sample s) => some (s.callchain.map (·.data))
  | _ => none

/-- A sample whose call chain claims 2³² + 1 entries, with room for one. -/
def overlongSample : List Byte := [9, 0, 0, 0, 0, 0, 24, 0] ++ [1, 0, 0, 0, 1, 0, 0, 0] ++ [7, 0, 0, 0, 0, 0, 0, 0]

/-- A sample with a call chain of one entry. -/
def chainSample : List Byte := [9, 0, 0, 0, 0, 0, 24, 0] ++ [1, 0, 0, 0, 0, 0, 0, 0] ++ [7, 0, 0, 0, 0, 0, 0, 0]

/-- **C83** fails in general: a 32-bit machine takes the malformed record for one with a single entry. -/
theorem c83_false : ¬ ∀ (w : Platform) (addr : Nat) (bs : List Byte), 32 ≤ w.bits → w.bits ≤ 64 →
    chainOn w addr bs = chainOn .wide addr bs := by
  intro h
  have := h .arm32 0 overlongSample (by decide) (by decide)
  revert this; decide +kernel

/-- What happens, in detail. -/
example : chainOn .wide 0 overlongSample = none ∧ chainOn .arm32 0 overlongSample = some (some [7#64]) ∧
    chainOn .x86 0 overlongSample = some (some [7#64]) := by decide +kernel

/-- A well-formed record is read alike (the hypotheses of `c83_same_partial` hold here). -/
example : chainOn .wide 0 chainSample = some (some [7#64]) ∧ chainOn .arm32 0 chainSample = some (some [7#64]) := by
  decide +kernel

/-- **C83** fails for 32-bit x86 even for well-formed records: at an address that is a multiple of 4 but not of 8, the
other machines lose the list (finding B2), and x86 does not. -/
theorem c83_x86_false : chainOn .wide 4 chainSample = none ∧ chainOn .arm32 4 chainSample = none ∧
    chainOn .x86 4 chainSample = some (some [7#64]) := by decide +kernel

/-- `Fits` holds for x86 too when the data is of the other byte order. -/
example : Platform.x86.Fits (ParseConfig.default (.big .little) .little) := .inr rfl

end Perf
