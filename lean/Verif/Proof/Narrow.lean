import Verif.Model.Narrow
import Verif.Proof.Dispatch
/-!
# Record parsers on other machines, compared with the main model
-/
namespace Perf
variable {β : Type} [ParseBuf β] [Lawful β] {α γ T : Type}
open ParserM

/-- Some eight consecutive bytes of the input are a number that does not fit `usize`. -/
def HasBig (w : Platform) (f : Flat) : Prop :=
  ∃ k, k + 8 ≤ f.s.bytes.length ∧ w.limit ≤ (f.cfg.endian.conv64 ((f.s.bytes.drop k).take 8)).toNat

theorem HasBig.of_adv {w : Platform} {f : Flat} {j : Nat} (h : HasBig w (f.adv j)) : HasBig w f := by
  obtain ⟨k, hk, hb⟩ := h
  simp only [Flat.adv_bytes, List.length_drop, List.drop_drop] at hk hb
  exact ⟨j + k, by omega, hb⟩

/-- Lists are found at the same places: same alignment, or lists are never looked up in place. -/
def Platform.Fits (w : Platform) (cfg : ParseConfig) : Prop := w.align = 8 ∨ cfg.endian.isNative = false

/-- `m` always fails. -/
def AlwaysFails (B : Nat) (m : P β α) : Prop :=
  ∀ p f, RepP p f → f.s.bytes.length ≤ B → HintLe p.data B → ∃ e, (m p).res = .error (.err e)

/-- `m'` does what `m` does, except where `m` fails; and there `m'` fails too, or the input has a number too large. -/
def Near (w : Platform) (B : Nat) (m m' : P β α) : Prop :=
  ∀ p f, RepP p f → f.s.bytes.length ≤ B → HintLe p.data B → w.Fits f.cfg →
    m' p = m p ∨ (∃ e, (m p).res = .error (.err e)) ∧ (HasBig w f ∨ ∃ e, (m' p).res = .error (.err e))

namespace AlwaysFails
variable {B : Nat}

theorem bind {m : P β α} (h : AlwaysFails B m) (k : α → P β γ) : AlwaysFails B (m >>= k) := by
  intro p f hp hB hh
  obtain ⟨e, he⟩ := h p f hp hB hh
  exact ⟨e, by rw [P.bind_err (P.run_eq _ he)]⟩

theorem bind' {Q : α → Prop} {m : P β α} {k : α → P β γ} (h : Safe B Q m) (hk : ∀ a, Q a → AlwaysFails B (k a)) :
    AlwaysFails B (m >>= k) := by
  intro p f hp hB hh
  obtain ⟨_, hr⟩ := h p f hp hB hh
  rcases hres : (m p).res with e | a
  · rw [hres] at hr
    rw [P.bind_err (P.run_eq _ hres)]
    match e, hr with
    | .err e, _ => exact ⟨e, rfl⟩
  · rw [hres] at hr
    obtain ⟨hQ, n, hn, hrep, hh'⟩ := hr
    rw [P.bind_ok (P.run_eq _ hres)]
    exact hk a hQ _ _ hrep (by simp; omega) hh'

theorem fail (e : ParseError) : AlwaysFails B (P.fail e : P β α) := fun _ _ _ _ _ => ⟨e, rfl⟩

theorem bytes {n : Nat} (hn : B < n) : AlwaysFails B (P.bytes n : P β (Cow Byte)) := by
  intro p f hp hB hh
  have h := Refines.bytes n p f hp
  unfold Spec.bytes Spec.take at h
  by_cases he : f.s.bytes = []
  · rw [if_pos he] at h; exact ⟨_, h⟩
  · rw [if_neg he, if_neg (by omega)] at h; exact ⟨_, h⟩

theorem slice {e : Elem T} {item : P β T} {itemS : Spec T} (h : Refines Eq item itemS) (hi : ItemOk e itemS) {n : Nat}
    (hn : B < n * e.size) : AlwaysFails B (P.slice e item n) := by
  have hrep : AlwaysFails B (P.repeated e.size item n >>= fun v => (Pure.pure (Cow.owned v) : P β (Cow T))) := by
    refine bind (fun p f hp hB _ => ?_) _
    have h1 := Refines.repeated e.size h n p f hp
    rw [Spec.repeated_short hi n f (by omega)] at h1
    exact ⟨_, h1⟩
  unfold P.slice
  have hd : ∀ p f, RepP p f → f.s.bytes.length ≤ B → HintLe p.data B →
      (∃ er, ((P.sliceDirect e n : P β (Option (List T))) p).res = .error (.err er)) ∨
      ∃ q, (P.sliceDirect e n : P β (Option (List T))) p = ⟨.ok none, q, []⟩ ∧ RepP q f ∧ HintLe q.data B := by
    intro p f hp hB hh
    unfold P.sliceDirect
    rw [P.bind_nil (P.config_run p)]
    by_cases hnat : (!p.config.endian.isNative) = true
    · rw [P.ite_pos hnat]; exact .inr ⟨p, rfl, hp, hh⟩
    rw [P.ite_neg hnat]
    by_cases hl : n * e.size ≥ usizeLimit
    · rw [P.ite_pos hl]; exact .inl ⟨_, rfl⟩
    rw [P.ite_neg hl]
    rcases P.bytesDirect_cases hp (n * e.size) with ⟨_, q, hq⟩ | ⟨_, q, hq, hrq, hm⟩ | ⟨_, hle, _⟩
    · rw [P.bind_err hq]; exact .inl ⟨_, rfl⟩
    · rw [P.bind_nil hq]; exact .inr ⟨q, rfl, hrq, hm.le hh⟩
    · omega
  intro p f hp hB hh
  rcases hd p f hp hB hh with ⟨er, he⟩ | ⟨q, hq, hrq, hhq⟩
  · rw [P.bind_err (P.run_eq _ he)]; exact ⟨er, rfl⟩
  · rw [P.bind_nil hq]
    exact hrep q f hrq hB hhq

end AlwaysFails

namespace Near
variable {w : Platform} {B : Nat}

omit [Lawful β] in
theorem refl' [Lawful β] (m : P β α) : Near w B m m := fun _ _ _ _ _ _ => .inl rfl

theorem bind {Q : α → Prop} {m m' : P β α} {k k' : α → P β γ} (hs : Safe B Q m) (h : Near w B m m')
    (hk : ∀ a, Q a → Near w B (k a) (k' a)) : Near w B (m >>= k) (m' >>= k') := by
  intro p f hp hB hh hf
  obtain ⟨_, hr⟩ := hs p f hp hB hh
  rcases h p f hp hB hh hf with he | ⟨⟨e, he⟩, hb⟩
  · rcases hres : m p with ⟨r, q, l⟩
    rw [hres] at he hr
    cases r with
    | error e => rw [P.bind_err hres, P.bind_err he]; exact .inl rfl
    | ok a =>
      obtain ⟨hQ, n, hn, hrep, hh'⟩ := hr
      rw [P.bind_ok hres, P.bind_ok he]
      rcases hk a hQ q _ hrep (by simp; omega) hh' hf with h1 | ⟨⟨e, h1⟩, h2⟩
      · rw [h1]; exact .inl rfl
      · refine .inr ⟨⟨e, h1⟩, ?_⟩
        rcases h2 with h2 | h2
        · exact .inl h2.of_adv
        · exact .inr h2
  · rw [P.bind_err (P.run_eq _ he)]
    refine .inr ⟨⟨e, rfl⟩, ?_⟩
    rcases hb with hb | ⟨e', hb⟩
    · exact .inl hb
    · exact .inr ⟨e', by rw [P.bind_err (P.run_eq _ hb)]⟩

theorem both {m m' : P β α} (h : AlwaysFails B m) (h' : AlwaysFails B m') : Near w B m m' :=
  fun p f hp hB hh _ => .inr ⟨h p f hp hB hh, .inr (h' p f hp hB hh)⟩

theorem ite {c : Prop} [Decidable c] {a a' b b' : P β α} (h1 : c → Near w B a a') (h2 : ¬ c → Near w B b b') :
    Near w B (if c then a else b) (if c then a' else b') := by
  by_cases hc : c
  · rw [if_pos hc, if_pos hc]; exact h1 hc
  · rw [if_neg hc, if_neg hc]; exact h2 hc

theorem parseIf {Q : α → Prop} {m m' : P β α} (c : Bool) (hs : Safe B Q m) (h : Near w B m m') :
    Near w B (Perf.parseIf c m) (Perf.parseIf c m') := by
  cases c with
  | true => exact bind hs h fun _ _ => refl' _
  | false => exact refl' _

/-- A number from the input that a list or a block of bytes depends on. -/
theorem count {k k' : U64 → P β γ} (hs : ∀ x : U64, x.toNat < w.limit → Near w B (k x) (k' x))
    (hb : ∀ x : U64, w.limit ≤ x.toNat → AlwaysFails B (k x)) : Near w B (parseU64 >>= k) (parseU64 >>= k') := by
  intro p f hp hB hh hf
  obtain ⟨_, hr⟩ := Safe.u64 (B := B) p f hp hB hh
  have h := Refines.u64 p f hp
  rcases Nat.lt_or_ge f.s.bytes.length 8 with hl | hl
  · rw [Spec.u64_short f hl] at h
    rw [P.bind_err (P.run_eq _ h), P.bind_err (P.run_eq _ h)]
    exact .inl rfl
  · rw [Spec.u64_ok f hl] at h
    obtain ⟨a, h1, h2, h3⟩ := h
    rw [h1] at hr
    obtain ⟨_, _, _, _, hh'⟩ := hr
    rw [P.bind_ok (P.run_eq _ h1), P.bind_ok (P.run_eq _ h1)]
    have hB' : (f.adv 8).s.bytes.length ≤ B := by simp; omega
    rcases Nat.lt_or_ge a.toNat w.limit with ha | ha
    · rcases hs a ha _ _ h3 hB' hh' hf with h4 | ⟨⟨e, h4⟩, h5⟩
      · rw [h4]; exact .inl rfl
      · refine .inr ⟨⟨e, h4⟩, ?_⟩
        rcases h5 with h5 | h5
        · exact .inl h5.of_adv
        · exact .inr h5
    · obtain ⟨e, h4⟩ := hb a ha _ _ h3 hB' hh'
      refine .inr ⟨⟨e, h4⟩, .inl ⟨0, by omega, ?_⟩⟩
      rw [List.drop_zero, ← h2]
      exact ha

theorem slice (hw : w.bits ≤ 64) (hBw : B < w.limit) {e : Elem T} {item : P β T} {itemS : Spec T} (h : Refines Eq item itemS)
    (hi : ItemOk e itemS) (n : Nat) : Near w B (P.slice e item n) (P.sliceOn w e item n) := by
  have hwl : w.limit ≤ usizeLimit := Nat.pow_le_pow_right (by decide) hw
  intro p f hp hB hh hf
  have key : (n * e.size < w.limit ∨ usizeLimit ≤ n * e.size ∨ f.cfg.endian.isNative = false) →
      (P.sliceDirectOn w e n : P β (Option (List T))) p = P.sliceDirect e n p := by
    intro hc
    unfold P.sliceDirectOn P.sliceDirect
    rw [P.bind_nil (P.config_run p), P.bind_nil (P.config_run p)]
    by_cases hnat : (!p.config.endian.isNative) = true
    · rw [P.ite_pos hnat, P.ite_pos hnat]
    rw [P.ite_neg hnat, P.ite_neg hnat]
    have hnat' : f.cfg.endian.isNative ≠ false := by
      intro h0
      rw [← hp.cfg] at h0
      rw [h0] at hnat
      exact hnat rfl
    have hal : w.align = 8 := hf.resolve_right hnat'
    rw [hal]
    rcases hc with hc | hc | hc
    · rw [P.ite_neg (by omega), P.ite_neg (by omega)]; rfl
    · rw [P.ite_pos (by omega), P.ite_pos (by omega)]
    · exact absurd hc hnat'
  have done : (P.sliceDirectOn w e n : P β (Option (List T))) p = P.sliceDirect e n p →
      P.sliceOn w e item n p = P.slice e item n p := by
    intro hk
    unfold P.sliceOn P.slice
    rcases hd : (P.sliceDirect e n : P β (Option (List T))) p with ⟨r, q, l⟩
    cases r with
    | error e => rw [P.bind_err hd, P.bind_err (hk.trans hd)]
    | ok a => rw [P.bind_ok hd, P.bind_ok (hk.trans hd)]; rfl
  by_cases h1 : n * e.size < w.limit
  · exact .inl (done (key (.inl h1)))
  by_cases h2 : usizeLimit ≤ n * e.size
  · exact .inl (done (key (.inr (.inl h2))))
  by_cases h3 : f.cfg.endian.isNative = false
  · exact .inl (done (key (.inr (.inr h3))))
  refine .inr ⟨AlwaysFails.slice h hi (by omega) p f hp hB hh, .inr ?_⟩
  have hn : ¬ (!p.config.endian.isNative) = true := by
    rw [hp.cfg]
    cases hx : f.cfg.endian.isNative with
    | true => decide
    | false => exact absurd hx h3
  have hd : (P.sliceDirectOn w e n : P β (Option (List T))) p = ⟨.error (.err (.custom .invalidRecord
      "array length in bytes larger than usize::MAX")), p, []⟩ := by
    unfold P.sliceDirectOn
    rw [P.bind_nil (P.config_run p), P.ite_neg hn, P.ite_pos (by omega)]
    rfl
  unfold P.sliceOn
  rw [P.bind_err hd]
  exact ⟨_, rfl⟩

end Near

theorem Platform.asUsize_small {w : Platform} {x : U64} (h : x.toNat < w.limit) : w.asUsize x = x.toNat := Nat.mod_eq_of_lt h

/-! ## The parsers that differ -/
namespace Near
variable {w : Platform} {B : Nat} (hw : w.bits ≤ 64) (hBw : B < w.limit)
include hw hBw

theorem namespaces : Near w B (parseNamespaces : P β (Namespaces Cow)) (parseNamespacesOn w) := by
  unfold parseNamespaces parseNamespacesOn
  refine bind Safe.u32 (refl' _) fun _ _ => bind Safe.u32 (refl' _) fun _ _ => count (fun x hx => ?_) fun x hx => ?_
  · rw [Platform.asUsize_small hx]
    exact bind (Safe.entries _) (slice hw hBw Refines.namespaceEntry ItemOk.namespaceEntry _) fun _ _ => refl' _
  · refine AlwaysFails.bind (AlwaysFails.slice Refines.namespaceEntry ItemOk.namespaceEntry ?_) _
    show B < _ * 16
    omega

theorem u64s (n : Nat) : Near w B (P.slice U64.elem parseU64 n : P β (Cow U64)) (P.sliceOn w U64.elem parseU64 n) :=
  slice hw hBw Refines.u64 ItemOk.u64 n

omit hw in
theorem _root_.Perf.AlwaysFails.u64s (n : Nat) (h : w.limit ≤ n) : AlwaysFails B (P.slice U64.elem parseU64 n : P β (Cow U64)) := by
  refine AlwaysFails.slice Refines.u64 ItemOk.u64 ?_
  show B < _ * 8
  omega

theorem readGroup : Near w B (parseReadGroup : P β (ReadGroup Cow)) (parseReadGroupOn w) := by
  have hwl : w.limit ≤ usizeLimit := Nat.pow_le_pow_right (by decide) hw
  unfold parseReadGroup parseReadGroupOn
  refine bind Safe.config (refl' _) fun cfg _ => ite (fun _ => refl' _) fun _ => ite (fun _ => refl' _) fun _ => ?_
  have hel : 1 ≤ ReadFormat.elementLen cfg.readFormat := by unfold ReadFormat.elementLen; omega
  have hmul : ∀ x : Nat, x ≤ x * ReadFormat.elementLen cfg.readFormat := fun x => Nat.le_mul_of_pos_right x hel
  refine count (fun x hx => ?_) fun x hx => ?_
  · rw [Platform.asUsize_small hx]
    refine bind (Safe.parseIf fun _ => Safe.u64) (refl' _) fun _ _ => ?_
    refine bind (Safe.parseIf fun _ => Safe.u64) (refl' _) fun _ _ => ?_
    dsimp only
    generalize x.toNat * ReadFormat.elementLen cfg.readFormat = n
    rcases Nat.lt_or_ge n w.limit with h1 | h1
    · rw [if_neg (by omega), if_neg (by omega)]
      exact bind (Safe.u64s _) (u64s hw hBw _) fun _ _ => refl' _
    · rw [if_pos (c := n ≥ w.limit) h1]
      refine both ?_ (AlwaysFails.fail _)
      by_cases h2 : n ≥ usizeLimit
      · rw [if_pos h2]; exact AlwaysFails.fail _
      · rw [if_neg h2]; exact AlwaysFails.bind (AlwaysFails.u64s hBw _ h1) _
  · refine AlwaysFails.bind' (Safe.parseIf fun _ => Safe.u64) fun _ _ => ?_
    refine AlwaysFails.bind' (Safe.parseIf fun _ => Safe.u64) fun _ _ => ?_
    have := hmul x.toNat
    dsimp only
    generalize x.toNat * ReadFormat.elementLen cfg.readFormat = n at *
    by_cases h2 : n ≥ usizeLimit
    · rw [if_pos h2]; exact AlwaysFails.fail _
    · rw [if_neg h2]; exact AlwaysFails.bind (AlwaysFails.u64s hBw _ (by omega)) _

theorem registers (mask : U64) : Near w B (parseRegisters mask : P β (Registers Cow)) (parseRegistersOn w mask) := by
  unfold parseRegisters parseRegistersOn
  exact bind Safe.u64 (refl' _) fun _ _ => bind (Safe.u64s _) (u64s hw hBw _) fun _ _ => refl' _

theorem registersUser : Near w B (parseRegistersUser : P β (Registers Cow)) (parseRegistersUserOn w) :=
  bind Safe.config (refl' _) fun _ _ => registers hw hBw _

theorem registersIntr : Near w B (parseRegistersIntr : P β (Registers Cow)) (parseRegistersIntrOn w) :=
  bind Safe.config (refl' _) fun _ _ => registers hw hBw _

theorem values : Near w B (parseValues : P β (ReadGroup Cow)) (parseValuesOn w) := by
  unfold parseValues parseValuesOn
  exact bind Safe.config (refl' _) fun _ _ => ite (fun _ => readGroup hw hBw) fun _ => refl' _

theorem callchain : Near w B (parseCallchain : P β (Cow U64)) (parseCallchainOn w) := by
  unfold parseCallchain parseCallchainOn
  refine count (fun x hx => ?_) fun x hx => AlwaysFails.u64s hBw _ hx
  rw [Platform.asUsize_small hx]; exact u64s hw hBw _

theorem lbr (b : Bool) : Near w B (parseLbr b : P β (Cow BranchEntry × Option U64)) (parseLbrOn w b) := by
  unfold parseLbr parseLbrOn
  refine count (fun x hx => ?_) fun x hx => ?_
  · rw [Platform.asUsize_small hx]
    refine bind (Safe.parseIf fun _ => Safe.u64) (refl' _) fun _ _ => ?_
    exact bind (Safe.branches _) (slice hw hBw Refines.branchEntry ItemOk.branchEntry _) fun _ _ => refl' _
  · refine AlwaysFails.bind' (Safe.parseIf fun _ => Safe.u64) fun _ _ => ?_
    refine AlwaysFails.bind (AlwaysFails.slice Refines.branchEntry ItemOk.branchEntry ?_) _
    show B < _ * 24
    omega

omit hw in
theorem stackUser : Near w B (parseStackUser : P β (Cow Byte)) (parseStackUserOn w) := by
  unfold parseStackUser parseStackUserOn
  refine count (fun x hx => ?_) fun x hx => AlwaysFails.bind (AlwaysFails.bytes (by omega)) _
  rw [Platform.asUsize_small hx]
  refine bind (Safe.bytes _) (refl' _) fun d hd => ?_
  unfold parseDynSize parseDynSizeOn
  by_cases h0 : x.toNat = 0
  · rw [if_pos h0]
    refine bind (Safe.pure (Q := fun y => y = 0#64) rfl) (refl' _) fun y hy => ?_
    subst hy
    rw [Platform.asUsize_small (by show 0 < _; omega)]
    exact refl' _
  · rw [if_neg h0]
    refine count (fun y hy => ?_) fun y hy => ?_
    · rw [Platform.asUsize_small hy]; exact refl' _
    · -- there is less data than that
      show AlwaysFails B (if y.toNat > d.data.length then _ else _)
      rw [if_pos (by omega)]
      exact AlwaysFails.fail _

omit hw in
theorem auxData : Near w B (parseAuxData : P β (Cow Byte)) (parseAuxDataOn w) := by
  unfold parseAuxData parseAuxDataOn
  refine count (fun x hx => ?_) fun x hx => AlwaysFails.bytes (by omega)
  rw [Platform.asUsize_small hx]; exact refl' _

theorem sample : Near w B (parseSample : P β (Sample Cow)) (parseSampleOn w) := by
  unfold parseSample parseSampleOn
  refine bind Safe.config (refl' _) fun cfg _ => ?_
  iterate 10 refine bind (Safe.parseIf fun _ => by first | exact Safe.u64 | exact Safe.u32 | exact Safe.cpu) (refl' _) fun _ _ => ?_
  refine bind (Safe.parseIf fun _ => Safe.values) (parseIf _ Safe.values (values hw hBw)) fun _ _ => ?_
  refine bind (Safe.parseIf fun _ => Safe.callchain) (parseIf _ Safe.callchain (callchain hw hBw)) fun _ _ => ?_
  refine bind (Safe.parseIf fun _ => Safe.raw) (refl' _) fun _ _ => ?_
  refine bind (Safe.parseIf fun _ => Safe.lbr _) (parseIf _ (Safe.lbr _) (lbr hw hBw _)) fun _ _ => ?_
  refine bind (Safe.parseIf fun _ => Safe.registersUser) (parseIf _ Safe.registersUser (registersUser hw hBw)) fun _ _ => ?_
  refine bind (Safe.parseIf fun _ => Safe.stackUser) (parseIf _ Safe.stackUser (stackUser hBw)) fun _ _ => ?_
  iterate 3 refine bind (Safe.parseIf fun _ => Safe.u64) (refl' _) fun _ _ => ?_
  refine bind (Safe.parseIf fun _ => Safe.registersIntr) (parseIf _ Safe.registersIntr (registersIntr hw hBw)) fun _ _ => ?_
  iterate 4 refine bind (Safe.parseIf fun _ => Safe.u64) (refl' _) fun _ _ => ?_
  exact bind (Safe.parseIf fun _ => Safe.auxData) (parseIf _ Safe.auxData (auxData hBw)) fun _ _ => refl' _

end Near
end Perf
