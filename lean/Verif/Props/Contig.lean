import Verif.Proof.Contig
import Verif.Props.Fast
import Verif.Props.Streams
import Verif.Props.Group
/-!
# C70: what parsing one piece of borrowed memory returns, in every case
-/
namespace Perf
variable {β : Type} [ParseBuf β] [LawfulEof β] {F : List Byte → β → Prop} {O : Type}

namespace Meets

/-- The trailer, over flat bytes and over one piece. -/
theorem sampleId_flat {f : Flat} {k : Nat} (hw : f.cfg.Wf) (hal : f.s.al = .at k) (hfin : f.s.fin = .eof) :
    (∃ e, (parseSampleId : Spec SampleId) f = .error (.err e) ∧ (parseSampleId : Contig SampleId) f = .error (.err e)) ∨
    (∃ a g g', (parseSampleId : Spec SampleId) f = .ok (a, g) ∧ (parseSampleId : Contig SampleId) f = .ok (a, g')) := by
  obtain ⟨⟨bs, al, fin⟩, off, cfg⟩ := f
  dsimp only at hal hfin
  subst hal hfin
  have hp : At (β := Slice) (fun d s => s.data = d) (⟨cfg, ⟨⟨k, bs⟩, off⟩⟩) ⟨⟨bs, .at k, .eof⟩, off, cfg⟩ :=
    ⟨⟨⟨rfl, rfl, rfl⟩, rfl, rfl, hw⟩, ⟨_, rfl⟩, ⟨k, rfl⟩, rfl⟩
  have h1 := sampleId OneBuf.slice _ _ hp
  have h2 := Refines.sampleId _ _ hp.rep
  rcases hs : (parseSampleId : Spec SampleId) ⟨⟨bs, .at k, .eof⟩, off, cfg⟩ with e | ⟨a, g⟩ <;> rw [hs] at h2 <;>
    rcases hc : (parseSampleId : Contig SampleId) ⟨⟨bs, .at k, .eof⟩, off, cfg⟩ with e' | ⟨a', g'⟩ <;> rw [hc] at h1
  · cases e with
    | stuck => exact absurd hs (NoStuck.sampleId _)
    | err e =>
      have h3 := h1.symm.trans h2
      cases h3
      exact .inl ⟨e, rfl, rfl⟩
  · cases e with
    | stuck => exact absurd hs (NoStuck.sampleId _)
    | err e =>
      have h3 := h1.1.symm.trans h2
      cases h3
  · obtain ⟨x, h3, -⟩ := h2
    have := h1.symm.trans h3
    cases this
  · obtain ⟨x, h3, h4, -⟩ := h2
    have := h1.1.symm.trans h3
    cases this
    subst h4
    exact .inr ⟨_, _, _, rfl, rfl⟩

/-- Metadata over flat bytes and over one piece. -/
theorem metadata_flat (h : Header) {f : Flat} {k : Nat} (hw : f.cfg.Wf) (hal : f.s.al = .at k) (hfin : f.s.fin = .eof) :
    Contig.metadataWithHeader h f = match Spec.metadataWithHeader h f with
      | .error .stuck => .error .panic
      | .error (.err e) => .error (.err e)
      | .ok r => .ok r := by
  unfold Contig.metadataWithHeader Spec.metadataWithHeader
  by_cases h1 : h.size.toNat < 8
  · simp only [h1, if_true]
  by_cases h2 : h.size.toNat - 8 ≤ f.s.bytes.length
  · by_cases h3 : h.type_.toNat = 1 ∨ h.type_.toNat = 9
    · simp only [h1, h2, h3, if_true, if_false]
    by_cases h4 : h.size.toNat - 8 < SampleId.estimateLen f.cfg
    · simp only [h1, h2, h3, h4, if_true, if_false]
    simp only [h1, h2, h3, h4, if_true, if_false]
    have := sampleId_flat (f := (f.region (h.size.toNat - 8)).adv (h.size.toNat - 8 - SampleId.estimateLen f.cfg))
      (k := k + (h.size.toNat - 8 - SampleId.estimateLen f.cfg)) hw (by
        rw [Flat.adv_al]
        show f.s.al.add _ = _
        rw [hal]
        rfl) rfl
    rcases this with ⟨e, a, b⟩ | ⟨a, g, g', b, c⟩
    · rw [a, b]
    · rw [b, c]
  · simp only [h1, h2, if_false, hfin]

theorem metadata_region {h : Header} {f f' r : Flat} {md : Metadata} (hm : Spec.metadataWithHeader h f = .ok ((r, md), f')) :
    8 ≤ h.size.toNat ∧ h.size.toNat - 8 ≤ f.s.bytes.length ∧ f' = f.adv (h.size.toNat - 8) ∧ ∃ n, r = f.region n := by
  unfold Spec.metadataWithHeader at hm
  split at hm
  · cases hm
  · split at hm
    · split at hm
      · cases hm; exact ⟨by omega, by assumption, rfl, _, rfl⟩
      · split at hm
        · cases hm
        · split at hm
          · cases hm
          · cases hm; exact ⟨by omega, by assumption, rfl, _, rfl⟩
    · cases hm

variable (h : OneBuf F)
include h

theorem recordWithHeader (v : Visitor Cow O) (hd : Header) :
    Meets F (P.recordWithHeader v hd : P β O) (Contig.recordWithHeader v hd) := by
  intro p f hp
  obtain ⟨k, hk⟩ := hp.al
  obtain ⟨h1, -, h3⟩ := P.metadataWithHeader_run hp.rep hd
  obtain ⟨d, hd'⟩ := hp.one
  have hinv := Inv.regionOf (G := fun c => ∃ d, Cursor.One d c) (I := OneIn F d)
    (fun n q hq => ⟨((h.splitAt d n) q hq).1, fun x hx => (((h.splitAt d n) q hq).2 x hx).2.imp fun _ hx => hx.2⟩)
    (fun n q r hq hr => by
      obtain ⟨d', hd'⟩ := hq
      exact ((OneBuf.cursor.splitAt d' n q ⟨d', List.suffix_refl _, hd'⟩).2 r hr).2.imp fun _ hx => hx.2) hd p ⟨d, List.suffix_refl _, hd'⟩
  have hfast := c03_fast_path v hd p
  have hm := metadata_flat hd hp.rep.wf hk hp.fin
  unfold Contig.recordWithHeader
  rcases hs : Spec.metadataWithHeader hd f with e | ⟨⟨r, md⟩, f'⟩
  · rw [hs] at h3 hm
    cases e with
    | stuck => exact h3.elim
    | err e =>
      rw [hm]
      show (P.recordWithHeader v hd p).res = _
      unfold P.recordWithHeader
      rw [P.bind_err (P.run_eq _ h3)]
  · rw [hs] at h3 hm
    obtain ⟨c, hc, hreg⟩ := h3
    rw [hm]
    dsimp only
    obtain ⟨a1, a2, rfl, n, rfl⟩ := metadata_region hs
    have hst : At F (P.recordWithHeader v hd p).st (f.adv (hd.size.toNat - 8)) := by
      rw [hfast.2]
      unfold P.recordWithHeaderGeneral
      rw [P.bind_ok (P.run_eq _ hc)]
      show At F (P.recordImpl c v md _).st _
      rw [P.recordImpl_st]
      exact hp.adv (h1 a1 a2).1 (hinv.1.imp fun _ hx => hx.2)
    have hat : At (β := Tracking Cursor) (fun d t => Cursor.One d t.buf) (Parser.new c.data (c.config.withMisc md.misc))
        ((f.region n).withMisc md.misc) :=
      ⟨hreg.rep.withMisc rfl md.misc, hinv.2 _ hc, ⟨k, hk⟩, rfl⟩
    have hbody := body OneBuf.cursor.tracking md.ty _ _ hat
    have hres : (P.recordWithHeader v hd p).res =
        (P.dispatch v md (Parser.new c.data (c.config.withMisc md.misc))).res := by
      rw [hfast.1]
      unfold P.recordWithHeaderGeneral
      rw [P.bind_ok (P.run_eq _ hc)]
      show (P.recordImpl c v md _).res = _
      unfold P.recordImpl
      rcases hdd : P.dispatch v md (Parser.new c.data (c.config.withMisc md.misc)) with ⟨res, q', l⟩
      cases res with
      | error e => rw [P.bind_err (P.onChild_err hdd _)]
      | ok a => rw [P.bind_ok (P.onChild_ok hdd _)]; rfl
    rw [P.dispatch_eq] at hres
    rcases hb : (parseBody md.ty : Contig (Record Cow)) ((f.region n).withMisc md.misc) with e | ⟨a, g⟩ <;> rw [hb] at hbody
    · rw [P.bind_err (P.run_eq _ hbody)] at hres
      exact hres
    · rw [P.bind_ok (P.run_eq _ hbody.1)] at hres
      have hres' : (P.recordWithHeader v hd p).res = v.apply a md := hres
      dsimp only
      rcases ha : v.apply a md with e | o
      · exact hres'.trans ha
      · exact ⟨hres'.trans ha, hst⟩

theorem record (v : Visitor Cow O) : Meets F (P.record v : P β O) (Contig.record v) :=
  bind (header h) fun hd => recordWithHeader h v hd

end Meets

/-! ## Reading given bytes -/

section
variable {cfg : ParseConfig} {o : Order} {k : Nat} {tl : List Byte} {α γ T : Type}

/-- At address `k`, with the bytes `bs` followed by `tl`, the parser returns `a` and has consumed `bs`. -/
def CReads (cfg : ParseConfig) (k : Nat) (s : Contig α) (bs tl : List Byte) (a : α) : Prop :=
  ∀ f : Flat, f.cfg = cfg → f.s.al = .at k → f.s.bytes = bs ++ tl → s f = .ok (a, f.adv bs.length)

/-- At address `k`, with the bytes `bs` and no more, the parser returns an `Eof` error. -/
def CEnds (cfg : ParseConfig) (k : Nat) (s : Contig α) (bs : List Byte) : Prop :=
  ∀ f : Flat, f.cfg = cfg → f.s.al = .at k → f.s.bytes = bs → s f = .error (.err .eof)

theorem CReads.pure (a : α) : CReads cfg k (Pure.pure a : Contig α) [] tl a := by
  intro f _ _ _
  show Except.ok (a, f) = _
  rw [List.length_nil, Flat.adv_zero]
theorem CReads.pure' {a b : α} (h : a = b) : CReads cfg k (Pure.pure a : Contig α) [] tl b := h ▸ CReads.pure a

theorem CReads.bind {s : Contig α} {c : α → Contig γ} {bs bs' : List Byte} {a : α} {b : γ}
    (h : CReads cfg k s bs (bs' ++ tl) a) (hc : CReads cfg (k + bs.length) (c a) bs' tl b) : CReads cfg k (s >>= c) (bs ++ bs') tl b := by
  intro f hf ha hb
  rw [List.append_assoc] at hb
  show Contig.bind s c f = _
  unfold Contig.bind
  rw [h f hf ha hb]
  show c a (f.adv bs.length) = _
  rw [hc (f.adv bs.length) hf (by rw [Flat.adv_al, ha]; rfl) (by rw [Flat.adv_bytes, hb, List.drop_left]), Flat.adv_adv,
    List.length_append]

theorem CReads.last {s : Contig α} {c : α → Contig γ} {bs : List Byte} {a : α} {b : γ}
    (h : CReads cfg k s bs tl a) (hc : CReads cfg (k + bs.length) (c a) [] tl b) : CReads cfg k (s >>= c) bs tl b := by
  have := CReads.bind (bs' := []) h hc
  rwa [List.append_nil] at this

theorem CReads.config {c : ParseConfig → Contig α} {bs : List Byte} {a : α} (h : CReads cfg k (c cfg) bs tl a) :
    CReads cfg k ((ParserM.config : Contig ParseConfig) >>= c) bs tl a := by
  intro f hf ha hb
  have : ((ParserM.config : Contig ParseConfig) >>= c) f = c f.cfg f := rfl
  rw [this, hf]
  exact h f hf ha hb

theorem CReads.array {n : Nat} {bs : List Byte} (hn : bs.length = n) (h0 : 0 < n) : CReads cfg k (Contig.array n) bs tl bs := by
  intro f _ _ hb
  unfold Contig.array Contig.take
  rw [if_neg (by rw [hb]; exact ne_nil_of_length hn h0), if_pos (by rw [hb]; simp; omega), hb, ← hn]
  simp

theorem CReads.u16 (hs : Src cfg o) (x : U16) : CReads cfg k (parseU16 : Contig U16) (e16 o x) tl x :=
  CReads.last (CReads.array (e16_length o x) (by omega)) (CReads.config (CReads.pure' (hs.conv16 x)))
theorem CReads.u32 (hs : Src cfg o) (x : U32) : CReads cfg k (parseU32 : Contig U32) (e32 o x) tl x :=
  CReads.last (CReads.array (e32_length o x) (by omega)) (CReads.config (CReads.pure' (hs.conv32 x)))
theorem CReads.u64 (hs : Src cfg o) (x : U64) : CReads cfg k (parseU64 : Contig U64) (e64 o x) tl x :=
  CReads.last (CReads.array (e64_length o x) (by omega)) (CReads.config (CReads.pure' (hs.conv64 x)))

theorem CReads.parseIf {s : Contig α} {bs : List Byte} {a : α} {b : Bool} (c : Bool) (hbc : b = c)
    (h : CReads cfg k s bs tl a) : CReads cfg k (Perf.parseIf b s) (opt c bs) tl (optv c a) := by
  subst hbc
  cases b with
  | true => exact CReads.last h (CReads.pure _)
  | false => exact CReads.pure _

theorem CReads.repeated {item : Contig T} {en : T → List Byte} (hi : ∀ x k tl, CReads cfg k item (en x) tl x) :
    ∀ (xs : List T) (k : Nat) (tl : List Byte), CReads cfg k (Contig.repeated item xs.length) (xs.flatMap en) tl xs
  | [], _, _ => CReads.pure _
  | x :: xs, k, tl => by
    rw [List.flatMap_cons]
    exact CReads.bind (hi x _ _) (CReads.last (CReads.repeated hi xs _ _) (CReads.pure _))

theorem CEnds.first {s : Contig α} {c : α → Contig γ} {bs : List Byte} (h : CEnds cfg k s bs) : CEnds cfg k (s >>= c) bs := by
  intro f hf ha hb
  show Contig.bind s c f = _
  unfold Contig.bind
  rw [h f hf ha hb]

theorem CEnds.bind {s : Contig α} {c : α → Contig γ} {bs tl : List Byte} {a : α} (h : CReads cfg k s bs tl a)
    (hk : CEnds cfg (k + bs.length) (c a) tl) : CEnds cfg k (s >>= c) (bs ++ tl) := by
  intro f hf ha hb
  show Contig.bind s c f = _
  unfold Contig.bind
  rw [h f hf ha hb]
  exact hk (f.adv bs.length) hf (by rw [Flat.adv_al, ha]; rfl) (by rw [Flat.adv_bytes, hb, List.drop_left])

theorem CEnds.config {c : ParseConfig → Contig α} {bs : List Byte} (h : CEnds cfg k (c cfg) bs) :
    CEnds cfg k ((ParserM.config : Contig ParseConfig) >>= c) bs := by
  intro f hf ha hb
  subst hf
  exact h f rfl ha hb

theorem CEnds.array {n : Nat} {bs : List Byte} (h : bs.length < n) : CEnds cfg k (Contig.array n) bs := by
  intro f _ _ hb
  unfold Contig.array Contig.take
  split
  · rfl
  · rw [if_neg (by rw [hb]; omega)]

/-- The parser takes `n` bytes and fails only if there are fewer. -/
def CFixed (n : Nat) (s : Contig α) : Prop :=
  ∀ f : Flat, (n ≤ f.s.bytes.length → ∃ a, s f = .ok (a, f.adv n)) ∧ (f.s.bytes.length < n → s f = .error (.err .eof))

theorem CFixed.pure (a : α) : CFixed 0 (Pure.pure a : Contig α) :=
  fun f => ⟨fun _ => ⟨a, by rw [Flat.adv_zero]; rfl⟩, fun h => absurd h (Nat.not_lt_zero _)⟩

theorem CFixed.bind {n m : Nat} {s : Contig α} {c : α → Contig γ} (h : CFixed n s) (hc : ∀ a, CFixed m (c a)) :
    CFixed (n + m) (s >>= c) := by
  intro f
  have hb : (s >>= c) f = Contig.bind s c f := rfl
  rw [hb]
  unfold Contig.bind
  rcases Nat.lt_or_ge f.s.bytes.length n with hl | hl
  · rw [(h f).2 hl]
    exact ⟨fun _ => by omega, fun _ => rfl⟩
  · obtain ⟨a, ha⟩ := (h f).1 hl
    rw [ha]
    obtain ⟨h1, h2⟩ := hc a (f.adv n)
    rw [Flat.adv_bytes, List.length_drop] at h1 h2
    refine ⟨fun h3 => ?_, fun h3 => h2 (by omega)⟩
    obtain ⟨b, hb⟩ := h1 (by omega)
    exact ⟨b, by rw [← Flat.adv_adv]; exact hb⟩

theorem CFixed.u64 : CFixed 8 (parseU64 : Contig U64) := by
  have h1 : CFixed 8 (Contig.array 8) := by
    intro f
    unfold Contig.array Contig.take
    refine ⟨fun h => ⟨f.s.bytes.take 8, ?_⟩, fun h => ?_⟩
    · rw [if_neg (by intro h0; rw [h0] at h; simp at h), if_pos h]
    · split
      · rfl
      · rw [if_neg (by omega)]
  have h2 : CFixed 0 (ParserM.config : Contig ParseConfig) :=
    fun f => ⟨fun _ => ⟨f.cfg, by rw [Flat.adv_zero]; rfl⟩, fun h => absurd h (Nat.not_lt_zero _)⟩
  exact CFixed.bind h1 fun _ => CFixed.bind (m := 0) h2 fun _ => CFixed.pure _

theorem CFixed.namespaceEntry : CFixed 16 (parseNamespaceEntry : Contig NamespaceEntry) :=
  CFixed.bind CFixed.u64 fun _ => CFixed.bind (m := 0) CFixed.u64 fun _ => CFixed.pure _
theorem CFixed.branchEntry : CFixed 24 (parseBranchEntry : Contig BranchEntry) :=
  CFixed.bind CFixed.u64 fun _ => CFixed.bind (m := 8) CFixed.u64 fun _ => CFixed.bind (m := 0) CFixed.u64 fun _ => CFixed.pure _

theorem CFixed.repeated {size : Nat} {item : Contig T} (h : CFixed size item) : ∀ n, CFixed (n * size) (Contig.repeated item n)
  | 0 => by rw [Nat.zero_mul]; exact CFixed.pure _
  | n + 1 => by
    have := CFixed.bind h fun x => CFixed.bind (m := 0) (CFixed.repeated h n) fun xs => CFixed.pure (x :: xs)
    rw [Nat.add_zero, Nat.add_comm, ← Nat.succ_mul] at this
    exact this

/-! ## Lists at addresses that are not multiples of 8 -/

/-- The list asked for is skipped and the next one of the same length is returned. -/
theorem CReads.shifted {e : Elem T} {item : Contig T} {en : T → List Byte} (hi : ∀ x k tl, CReads cfg k item (en x) tl x)
    (hn : cfg.endian.isNative = true) (hk : k % 8 ≠ 0) {n : Nat} {bs : List Byte} (hbs : bs.length = n * e.size)
    (h0 : 0 < n * e.size) (hlim : n * e.size < usizeLimit) {xs : List T} (hx : xs.length = n) :
    CReads cfg k (ParserM.slice (C := Cow) e item n : Contig (Cow T)) (bs ++ xs.flatMap en) tl (.owned xs) := by
  intro f hf ha hb
  show Contig.slice e item n f = _
  unfold Contig.slice
  subst hf
  have hal : f.s.al.aligned = false := by
    rw [ha]
    show (k % 8 == 0) = false
    simp [hk]
  rw [if_pos hn, if_neg (by omega), if_neg (by intro h; rw [h] at hb; have := congrArg List.length hb; simp at this; omega),
    if_pos (by rw [hb]; simp only [List.length_append]; omega), hal, if_neg (by simp; omega)]
  have h1 : CReads f.cfg (k + n * e.size) (Contig.copied item n) (xs.flatMap en) tl (.owned xs) := by
    subst hx
    exact CReads.last (CReads.repeated hi xs _ _) (CReads.pure _)
  rw [h1 (f.adv (n * e.size)) rfl (by rw [Flat.adv_al, ha]; rfl) (by
    rw [Flat.adv_bytes, hb, List.append_assoc, ← hbs, List.drop_left]), Flat.adv_adv, List.length_append, hbs]

/-- If less than that follows, `Eof`. -/
theorem CEnds.shifted {e : Elem T} {item : Contig T} (hi : CFixed e.size item) (hn : cfg.endian.isNative = true) (hk : k % 8 ≠ 0)
    {n : Nat} {bs : List Byte} (h0 : 0 < n * e.size) (hlim : n * e.size < usizeLimit) (h2 : bs.length < 2 * (n * e.size)) :
    CEnds cfg k (ParserM.slice (C := Cow) e item n : Contig (Cow T)) bs := by
  intro f hf ha hb
  show Contig.slice e item n f = _
  unfold Contig.slice
  subst hf hb
  have hal : f.s.al.aligned = false := by
    rw [ha]
    show (k % 8 == 0) = false
    simp [hk]
  rw [if_pos hn, if_neg (by omega)]
  have hfix : CFixed (n * e.size) (Contig.copied item n) := CFixed.bind (m := 0) (CFixed.repeated hi n) fun _ => CFixed.pure _
  split
  · rfl
  · split
    · rw [hal, if_neg (by simp; omega)]
      exact (hfix _).2 (by rw [Flat.adv_bytes, List.length_drop]; omega)
    · exact (hfix _).2 (by omega)

end

/-! ## The property -/

theorem At.slice (a : Nat) (d : List Byte) {cfg : ParseConfig} (hw : cfg.Wf) :
    At (fun d (s : Slice) => s.data = d) (Parser.new (⟨a, d⟩ : Slice) cfg) (.here a d cfg) :=
  ⟨RepP.slice a d hw, ⟨d, rfl⟩, ⟨a, rfl⟩, rfl⟩

/-- The outcome without the position. -/
def Contig.result {α : Type} (s : Contig α) (f : Flat) : Except Fault α := (s f).map (·.1)

theorem Meets.result {α : Type} {m : P β α} {s : Contig α} (h : Meets F m s) {p : Parser β} {f : Flat} (hp : At F p f) :
    (m p).res = s.result f := by
  have := h p f hp
  unfold Contig.result
  rcases hs : s f with e | ⟨a, f'⟩ <;> rw [hs] at this
  · exact this
  · exact this.1

/-- **C70** For every slice, configuration and visitor: the value or error of `parse_record` is that of the contiguous parser. -/
theorem c70_slice (a : Nat) (d : List Byte) {cfg : ParseConfig} (hw : cfg.Wf) (v : Visitor Cow O) :
    (P.record v (Parser.new (⟨a, d⟩ : Slice) cfg)).res = (Contig.record v).result (.here a d cfg) :=
  (Meets.record OneBuf.slice v).result (At.slice a d hw)

/-- **C70** The same for every buffer that hands out its data as one borrowed chunk, at every position; after a record the
parser is at the position the contiguous parser is at, so this applies to the next record as well. -/
theorem c70_one_piece (h : OneBuf F) (v : Visitor Cow O) {p : Parser β} {f : Flat} (hp : At F p f) :
    (P.record v p).res = (Contig.record v).result f ∧
    ∀ x f', Contig.record v f = .ok (x, f') → At F (P.record v p).st f' := by
  refine ⟨(Meets.record h v).result hp, fun x f' hf => ?_⟩
  have := Meets.record h v p f hp
  rw [hf] at this
  exact this.2

/-- **C70** Of the address only the remainder modulo 8 matters, also for whether parts of the record are borrowed. -/
theorem c70_address (a b : Nat) (hab : a % 8 = b % 8) (d : List Byte) {cfg : ParseConfig} (hw : cfg.Wf) (v : Visitor Cow O) :
    (P.record v (Parser.new (⟨a, d⟩ : Slice) cfg)).res = (P.record v (Parser.new (⟨b, d⟩ : Slice) cfg)).res := by
  have hb : At (fun d (s : Slice) => s.data = d) (Parser.new (⟨b, d⟩ : Slice) cfg) (.here a d cfg) :=
    ⟨⟨⟨rfl, rfl, hab.symm⟩, rfl, rfl, hw⟩, ⟨d, rfl⟩, ⟨a, rfl⟩, rfl⟩
  rw [c70_slice a d hw v, (Meets.record OneBuf.slice v).result hb]

/-- **C70** A record the kernel wrote: the visitor gets what the contiguous parser makes of the record's own bytes. -/
theorem c70_kernel_record {o : Order} (a : Nat) {cfg : ParseConfig} (hw : cfg.Wf) (hs : Src cfg o) (r : KRecord)
    (hsize : r.size o cfg < 65536) (tl : List Byte) (v : Visitor Cow O) :
    (P.record v (Parser.new (⟨a, r.enc o cfg ++ tl⟩ : Slice) cfg)).res =
      ((parseBody r.body.type : Contig (Record Cow)).result (.here (a + 8) (r.body.enc o cfg) (cfg.withMisc r.misc))).bind
        fun x => v.apply x (r.metadata cfg) := by
  rw [c70_slice a _ hw]
  unfold Contig.result
  have hh : CReads cfg a (parseHeader : Contig Header)
      (e32 o r.body.type ++ (e16 o r.misc ++ e16 o (BitVec.ofNat 16 (r.size o cfg))))
      (r.body.enc o cfg ++ (r.encTrailer o cfg ++ tl)) ⟨r.body.type, r.misc, BitVec.ofNat 16 (r.size o cfg)⟩ :=
    CReads.bind (CReads.u32 hs _) (CReads.bind (CReads.u16 hs _) (CReads.last (CReads.u16 hs _) (CReads.pure _)))
  have hb : (Flat.here a (r.enc o cfg ++ tl) cfg).s.bytes =
      (e32 o r.body.type ++ (e16 o r.misc ++ e16 o (BitVec.ofNat 16 (r.size o cfg)))) ++
      (r.body.enc o cfg ++ (r.encTrailer o cfg ++ tl)) := by
    show r.enc o cfg ++ tl = _
    unfold KRecord.enc
    simp only [List.append_assoc]
  have h1 := hh (.here a (r.enc o cfg ++ tl) cfg) rfl rfl hb
  have hl : (e32 o r.body.type ++ (e16 o r.misc ++ e16 o (BitVec.ofNat 16 (r.size o cfg)))).length = 8 := by simp
  rw [hl] at h1
  have hb8 : ((Flat.here a (r.enc o cfg ++ tl) cfg).adv 8).s.bytes = r.body.enc o cfg ++ (r.encTrailer o cfg ++ tl) := by
    rw [Flat.adv_bytes, hb, ← hl, List.drop_left]
  obtain ⟨f', hm⟩ := metadata_enc (f := (Flat.here a (r.enc o cfg ++ tl) cfg).adv 8) hs r hsize (by
    rw [hb8, List.append_assoc]; rfl)
  have hm' := Meets.metadata_flat ⟨r.body.type, r.misc, BitVec.ofNat 16 (r.size o cfg)⟩
    (f := (Flat.here a (r.enc o cfg ++ tl) cfg).adv 8) (k := a + 8) hw rfl rfl
  have hreg : (((Flat.here a (r.enc o cfg ++ tl) cfg).adv 8).region (r.body.enc o cfg).length).withMisc r.misc =
      .here (a + 8) (r.body.enc o cfg) (cfg.withMisc r.misc) := by
    unfold Flat.region
    rw [hb8, List.take_left]
    rfl
  have hrec : Contig.record v (.here a (r.enc o cfg ++ tl) cfg) =
      Contig.recordWithHeader v ⟨r.body.type, r.misc, BitVec.ofNat 16 (r.size o cfg)⟩ ((Flat.here a (r.enc o cfg ++ tl) cfg).adv 8) := by
    show Contig.bind parseHeader _ _ = _
    unfold Contig.bind
    rw [h1]
  have hmd : Contig.metadataWithHeader ⟨r.body.type, r.misc, BitVec.ofNat 16 (r.size o cfg)⟩
      ((Flat.here a (r.enc o cfg ++ tl) cfg).adv 8) =
      .ok ((((Flat.here a (r.enc o cfg ++ tl) cfg).adv 8).region (r.body.enc o cfg).length, r.metadata cfg), f') := by
    rw [hm']
    show (match Spec.metadataWithHeader ⟨r.body.type, r.misc, BitVec.ofNat 16 (r.size o (Flat.adv (.here a (r.enc o cfg ++ tl) cfg) 8).cfg)⟩ _ with
      | .error .stuck => _
      | .error (.err e) => _
      | .ok r => _) = _
    rw [hm]
    rfl
  rw [hrec]
  unfold Contig.recordWithHeader
  rw [hmd]
  dsimp only
  rw [show (r.metadata cfg).misc = r.misc from rfl, show (r.metadata cfg).ty = r.body.type from rfl, hreg]
  rcases (parseBody r.body.type : Contig (Record Cow)) (.here (a + 8) (r.body.enc o cfg) (cfg.withMisc r.misc)) with e | ⟨x, g⟩
  · rfl
  · show ((v.apply x (r.metadata cfg)).map _).map _ = v.apply x (r.metadata cfg)
    rcases v.apply x (r.metadata cfg) with e | y <;> rfl

/-! ## Lists in the host's byte order that are not aligned

Each list is skipped. If less follows than it is long, the error is `Eof`; otherwise the list is read from what follows. -/

section
variable {o : Order} {cfg : ParseConfig} {a : Nat} {α : Type}

theorem CEnds.result {s : Contig α} {bs : List Byte} (h : CEnds cfg a s bs) : s.result (.here a bs cfg) = .error (.err .eof) := by
  unfold Contig.result
  rw [h (.here a bs cfg) rfl rfl rfl]
  rfl

theorem CReads.result {s : Contig α} {bs tl : List Byte} {x : α} (h : CReads cfg a s bs tl x) : s.result (.here a (bs ++ tl) cfg) = .ok x := by
  unfold Contig.result
  rw [h (.here a (bs ++ tl) cfg) rfl rfl rfl]
  rfl

/-- **C70** Call chains. -/
theorem c70_callchain_misaligned (hw : cfg.Wf) (hs : Src cfg o) (hn : cfg.endian.isNative = true) (ha : a % 8 ≠ 0) (ws : List U64)
    (h0 : ws ≠ []) (hlim : ws.length * 8 < usizeLimit) (tl : List Byte) :
    (tl.length < ws.length * 8 →
      ((parseCallchain : P Slice (Cow U64)) (Parser.new ⟨a, e64 o (BitVec.ofNat 64 ws.length) ++ (ws.flatMap (e64 o) ++ tl)⟩ cfg)).res =
        .error (.err .eof)) ∧
    (∀ vs tl', vs.length = ws.length → tl = vs.flatMap (e64 o) ++ tl' →
      ((parseCallchain : P Slice (Cow U64)) (Parser.new ⟨a, e64 o (BitVec.ofNat 64 ws.length) ++ (ws.flatMap (e64 o) ++ tl)⟩ cfg)).res =
        .ok (.owned vs)) := by
  have hl : (BitVec.ofNat 64 ws.length).toNat = ws.length := toNat_ofNat_lt (by unfold usizeLimit at hlim; omega)
  have hwl := flatMap_e64_length o ws
  have hpos := List.length_pos_iff.mpr h0
  have key := fun bs => (Meets.callchain OneBuf.slice).result (At.slice a bs hw)
  refine ⟨fun h => ?_, fun vs tl' hv ht => ?_⟩
  · rw [key]
    refine CEnds.result (CEnds.bind (CReads.u64 hs _) ?_)
    rw [hl]
    exact CEnds.shifted CFixed.u64 hn (by rw [e64_length]; omega) (by show 0 < _ * 8; omega) hlim
      (by show _ < 2 * (_ * 8); rw [List.length_append]; omega)
  · rw [key, ht, ← List.append_assoc (ws.flatMap _), ← List.append_assoc]
    refine CReads.result (CReads.bind (CReads.u64 hs _) ?_)
    rw [hl]
    exact CReads.shifted (fun x k tl => CReads.u64 hs x) hn (by rw [e64_length]; omega) (by show _ = _ * 8; omega)
      (by show 0 < _ * 8; omega) hlim hv

/-- A call chain of one at address 4 and what is behind it. -/
example : (4 : Nat) % 8 ≠ 0 ∧ demoCfg.endian.isNative = true ∧
    (match ((parseCallchain : P Slice (Cow U64)) (Parser.new ⟨4, [1, 100, 200].flatMap (e64 .little)⟩ demoCfg)).res with
      | .ok c => c == .owned [200]
      | .error _ => false) = true := by
  decide +kernel

/-- **C70** Branch stacks. -/
theorem c70_branches_misaligned (hw : cfg.Wf) (hs : Src cfg o) (hn : cfg.endian.isNative = true) (ha : a % 8 ≠ 0) (hwi : Bool) (i : U64)
    (ws : List BranchEntry) (h0 : ws ≠ []) (hlim : ws.length * 24 < usizeLimit) (tl : List Byte) :
    (tl.length < ws.length * 24 →
      ((parseLbr hwi : P Slice (Cow BranchEntry × Option U64))
        (Parser.new ⟨a, e64 o (BitVec.ofNat 64 ws.length) ++ (opt hwi (e64 o i) ++ (ws.flatMap (encBranch o) ++ tl))⟩ cfg)).res =
        .error (.err .eof)) ∧
    (∀ vs tl', vs.length = ws.length → tl = vs.flatMap (encBranch o) ++ tl' →
      ((parseLbr hwi : P Slice (Cow BranchEntry × Option U64))
        (Parser.new ⟨a, e64 o (BitVec.ofNat 64 ws.length) ++ (opt hwi (e64 o i) ++ (ws.flatMap (encBranch o) ++ tl))⟩ cfg)).res =
        .ok (.owned vs, optv hwi i)) := by
  have hl : (BitVec.ofNat 64 ws.length).toNat = ws.length := toNat_ofNat_lt (by unfold usizeLimit at hlim; omega)
  have hbl : ∀ x, (encBranch o x).length = 24 := fun x => by unfold encBranch; simp
  have hwl : (ws.flatMap (encBranch o)).length = ws.length * 24 := by
    clear h0 hlim hl
    induction ws with
    | nil => rfl
    | cons x xs ih => rw [List.flatMap_cons, List.length_append, ih, hbl, List.length_cons]; omega
  have hpos := List.length_pos_iff.mpr h0
  have hod : (opt hwi (e64 o i)).length % 8 = 0 := opt_mod _ _ (by simp)
  have hitem : ∀ x k tl, CReads cfg k (parseBranchEntry : Contig BranchEntry) (encBranch o x) tl x := fun x k tl => by
    unfold encBranch
    rw [List.append_assoc]
    exact CReads.bind (CReads.u64 hs _) (CReads.bind (CReads.u64 hs _) (CReads.last (CReads.u64 hs _) (CReads.pure _)))
  have key := fun bs => (Meets.lbr OneBuf.slice hwi).result (At.slice a bs hw)
  refine ⟨fun h => ?_, fun vs tl' hv ht => ?_⟩
  · rw [key]
    refine CEnds.result (CEnds.bind (CReads.u64 hs _) (CEnds.bind (CReads.parseIf hwi rfl (CReads.u64 hs i)) (CEnds.first ?_)))
    rw [hl]
    exact CEnds.shifted CFixed.branchEntry hn (by rw [e64_length]; omega) (by show 0 < _ * 24; omega) hlim
      (by show _ < 2 * (_ * 24); rw [List.length_append]; omega)
  · rw [key, ht, ← List.append_assoc (ws.flatMap _), ← List.append_assoc (opt _ _), ← List.append_assoc]
    refine CReads.result (CReads.bind (CReads.u64 hs _) (CReads.bind (CReads.parseIf hwi rfl (CReads.u64 hs i)) (CReads.last ?_ (CReads.pure _))))
    rw [hl]
    exact CReads.shifted hitem hn (by rw [e64_length]; omega) (by show _ = _ * 24; omega)
      (by show 0 < _ * 24; omega) hlim hv

/-- **C70** Registers. -/
theorem c70_registers_misaligned (hw : cfg.Wf) (hs : Src cfg o) (hn : cfg.endian.isNative = true) (ha : a % 8 ≠ 0) (abi mask : U64)
    (ws : List U64) (h0 : ws ≠ []) (hl : ws.length = popcount mask) (tl : List Byte) :
    (tl.length < ws.length * 8 →
      ((parseRegisters mask : P Slice (Registers Cow)) (Parser.new ⟨a, e64 o abi ++ (ws.flatMap (e64 o) ++ tl)⟩ cfg)).res =
        .error (.err .eof)) ∧
    (∀ vs tl', vs.length = ws.length → tl = vs.flatMap (e64 o) ++ tl' →
      ((parseRegisters mask : P Slice (Registers Cow)) (Parser.new ⟨a, e64 o abi ++ (ws.flatMap (e64 o) ++ tl)⟩ cfg)).res =
        .ok ⟨abi, mask, .owned vs⟩) := by
  have hwl := flatMap_e64_length o ws
  have hle : popcount mask ≤ 64 := by
    unfold popcount
    exact Nat.le_trans (List.length_filter_le _ _) (by simp)
  have hpos := List.length_pos_iff.mpr h0
  have hlim : popcount mask * 8 < usizeLimit := by unfold usizeLimit; omega
  have key := fun bs => (Meets.registers OneBuf.slice mask).result (At.slice a bs hw)
  refine ⟨fun h => ?_, fun vs tl' hv ht => ?_⟩
  · rw [key]
    refine CEnds.result (CEnds.bind (CReads.u64 hs _) (CEnds.first ?_))
    exact CEnds.shifted CFixed.u64 hn (by rw [e64_length]; omega) (by show 0 < _ * 8; omega) hlim
      (by show _ < 2 * (_ * 8); rw [List.length_append]; omega)
  · rw [key, ht, ← List.append_assoc (ws.flatMap _), ← List.append_assoc]
    refine CReads.result (CReads.bind (CReads.u64 hs _) (CReads.last ?_ (CReads.pure _)))
    exact CReads.shifted (fun x k tl => CReads.u64 hs x) hn (by rw [e64_length]; omega) (by show _ = _ * 8; omega)
      (by show 0 < _ * 8; omega) hlim (by omega)

/-- **C23**, an excluded case, for all groups with counters: in the host's byte order and not aligned, the counters are skipped. If
less follows, the error is `Eof`; otherwise what follows is returned as the counters. -/
theorem c23_misaligned_group (hw : cfg.Wf) (hs : Src cfg o) (hn : cfg.endian.isNative = true) (ha : a % 8 ≠ 0)
    (h3 : cfg.readFormat.getLsbD 3 = true) (h5 : cfg.readFormat.getLsbD 5 = false) (g : KGroup) (h0 : g.counters ≠ [])
    (hlim : (g.enc o cfg.readFormat).length < usizeLimit) (tl : List Byte) :
    (tl.length < (g.counters.flatMap (KCounter.words cfg.readFormat)).length * 8 →
      ((parseReadGroup : P Slice (ReadGroup Cow)) (Parser.new ⟨a, g.enc o cfg.readFormat ++ tl⟩ cfg)).res = .error (.err .eof)) ∧
    (∀ cs tl', cs.length = g.counters.length → tl = (cs.flatMap (KCounter.words cfg.readFormat)).flatMap (e64 o) ++ tl' →
      ∃ x : ReadGroup Cow, ((parseReadGroup : P Slice (ReadGroup Cow)) (Parser.new ⟨a, g.enc o cfg.readFormat ++ tl⟩ cfg)).res = .ok x ∧
        x.view = (KGroup.mk g.timeEnabled g.timeRunning cs).readGroup cfg.readFormat) := by
  have hwords := words_length cfg.readFormat g.counters
  have hf := flatMap_e64_length o (g.counters.flatMap (KCounter.words cfg.readFormat))
  have he1 : 1 ≤ ReadFormat.elementLen cfg.readFormat := by unfold ReadFormat.elementLen; omega
  have hcl : g.counters.length ≤ g.counters.length * ReadFormat.elementLen cfg.readFormat := Nat.le_mul_of_pos_right _ he1
  have hpos := List.length_pos_iff.mpr h0
  have hlim' : g.counters.length * ReadFormat.elementLen cfg.readFormat * 8 < usizeLimit := by
    unfold KGroup.enc at hlim
    simp only [List.length_append] at hlim
    omega
  have hl : (BitVec.ofNat 64 g.counters.length).toNat = g.counters.length := by
    apply toNat_ofNat_lt
    unfold usizeLimit at hlim'
    omega
  have hg : contains cfg.readFormat ReadFormat.GROUP = true := (contains_rf _ 3 (by omega) _ rfl).trans h3
  have hd := diff_zero cfg h5
  have hod : ∀ (b : Bool) (x : U64), (opt b (e64 o x)).length % 8 = 0 := fun b x => opt_mod _ _ (by simp)
  have key := fun bs => (Meets.readGroup OneBuf.slice).result (At.slice a bs hw)
  unfold KGroup.enc
  have ho1 := hod (cfg.readFormat.getLsbD 0) g.timeEnabled
  have ho2 := hod (cfg.readFormat.getLsbD 1) g.timeRunning
  refine ⟨fun h => ?_, fun cs tl' hv ht => ?_⟩
  · rw [key]
    simp only [List.append_assoc]
    refine CEnds.result ?_
    unfold parseReadGroup
    refine CEnds.config ?_
    simp only [hg, Bool.not_true, Bool.false_eq_true, if_false, hd, ne_eq, not_true_eq_false]
    refine CEnds.bind (CReads.u64 hs _) (CEnds.bind (CReads.parseIf _ (contains_rf _ 0 (by omega) _ rfl) (CReads.u64 hs _))
      (CEnds.bind (CReads.parseIf _ (contains_rf _ 1 (by omega) _ rfl) (CReads.u64 hs _)) ?_))
    rw [hl, if_neg (by omega)]
    exact CEnds.first (CEnds.shifted CFixed.u64 hn (by rw [e64_length]; omega) (by show 0 < _ * 8; omega) hlim'
      (by show _ < 2 * (_ * 8); rw [List.length_append]; omega))
  · have hwords' := words_length cfg.readFormat cs
    rw [key, ht]
    refine ⟨⟨cfg.readFormat, if cfg.readFormat.getLsbD 0 then g.timeEnabled else 0, if cfg.readFormat.getLsbD 1 then g.timeRunning else 0,
      .owned (cs.flatMap (KCounter.words cfg.readFormat))⟩, ?_, rfl⟩
    rw [show e64 o (BitVec.ofNat 64 g.counters.length) ++ opt (cfg.readFormat.getLsbD 0) (e64 o g.timeEnabled) ++
        opt (cfg.readFormat.getLsbD 1) (e64 o g.timeRunning) ++ (g.counters.flatMap (KCounter.words cfg.readFormat)).flatMap (e64 o) ++
        ((cs.flatMap (KCounter.words cfg.readFormat)).flatMap (e64 o) ++ tl') =
      (e64 o (BitVec.ofNat 64 g.counters.length) ++ (opt (cfg.readFormat.getLsbD 0) (e64 o g.timeEnabled) ++
        (opt (cfg.readFormat.getLsbD 1) (e64 o g.timeRunning) ++ ((g.counters.flatMap (KCounter.words cfg.readFormat)).flatMap (e64 o) ++
        (cs.flatMap (KCounter.words cfg.readFormat)).flatMap (e64 o))))) ++ tl' by simp only [List.append_assoc]]
    refine CReads.result ?_
    unfold parseReadGroup
    refine CReads.config ?_
    simp only [hg, Bool.not_true, Bool.false_eq_true, if_false, hd, ne_eq, not_true_eq_false]
    refine CReads.bind (CReads.u64 hs _) (CReads.bind (CReads.parseIf _ (contains_rf _ 0 (by omega) _ rfl) (CReads.u64 hs _))
      (CReads.bind (CReads.parseIf _ (contains_rf _ 1 (by omega) _ rfl) (CReads.u64 hs _)) ?_))
    rw [hl, if_neg (by omega)]
    refine CReads.last (CReads.shifted (fun x k tl => CReads.u64 hs x) hn (by rw [e64_length]; omega) (by show _ = _ * 8; omega)
      (by show 0 < _ * 8; omega) hlim' (by rw [hwords', hv])) (CReads.pure' ?_)
    simp only [getD_optv]
    rfl

/-- **C14**, the excluded case, for all records: in the host's byte order, at an address that is not a multiple of 8, every
NAMESPACES record is an `Eof` error. -/
theorem c14_misaligned_native (hw : cfg.Wf) (hs : Src cfg o) (hn : cfg.endian.isNative = true) (ha : a % 8 ≠ 0) (misc : U16) (t : KTrailer)
    (pid tid : U32) (es : List NamespaceEntry) (hsize : (KRecord.mk misc (.namespaces pid tid es) t).size o cfg < 65536) (tl : List Byte) :
    (P.parseRecord (Parser.new (⟨a, (KRecord.mk misc (.namespaces pid tid es) t).enc o cfg ++ tl⟩ : Slice) cfg)).res = .error (.err .eof) := by
  show (P.record _ _).res = _
  rw [c70_kernel_record a hw hs _ hsize]
  have hl : es.length < 65536 := by
    unfold KRecord.size KBody.enc at hsize
    simp only [List.length_append] at hsize
    have : es.length ≤ (es.flatMap fun e => e64 o e.dev ++ e64 o e.inode).length := by
      clear hsize
      induction es with
      | nil => exact Nat.le_refl _
      | cons x xs ih => rw [List.flatMap_cons, List.length_append, List.length_cons]; simp only [List.length_append, e64_length]; omega
    omega
  have hel : (es.flatMap fun e => e64 o e.dev ++ e64 o e.inode).length = es.length * 16 := by
    clear hl hsize
    induction es with
    | nil => rfl
    | cons x xs ih =>
      rw [List.flatMap_cons, List.length_append, List.length_cons, ih]; simp only [List.length_append, e64_length]; omega
  have hln : (BitVec.ofNat 64 es.length).toNat = es.length := toNat_ofNat_lt (by omega)
  have hsrc : Src (cfg.withMisc misc) o := hs.withMisc misc
  have hend : CEnds (cfg.withMisc misc) (a + 8) (parseNamespaces : Contig (Namespaces Cow))
      (e32 o pid ++ (e32 o tid ++ (e64 o (BitVec.ofNat 64 es.length) ++ es.flatMap fun e => e64 o e.dev ++ e64 o e.inode))) := by
    refine CEnds.bind (CReads.u32 hsrc _) (CEnds.bind (CReads.u32 hsrc _) (CEnds.bind (CReads.u64 hsrc _) (CEnds.first ?_)))
    rw [hln]
    by_cases h0 : es = []
    · subst h0
      intro f hf _ hb
      show Contig.slice _ _ _ f = _
      unfold Contig.slice
      rw [hf, if_pos (show (cfg.withMisc misc).endian.isNative = true from hn), if_neg (by decide), if_pos (show f.s.bytes = [] from hb)]
    · have hpos := List.length_pos_iff.mpr h0
      have h32 := e32_length o pid
      have h32' := e32_length o tid
      have h64 := e64_length o (BitVec.ofNat 64 es.length)
      refine CEnds.shifted (cfg := cfg.withMisc misc) (e := NamespaceEntry.elem) (n := es.length) CFixed.namespaceEntry hn ?_ ?_ ?_ ?_
      · omega
      · show 0 < _ * 16; omega
      · show _ * 16 < _; unfold usizeLimit; omega
      · show _ < 2 * (_ * 16); omega
  have hbody : CEnds (cfg.withMisc misc) (a + 8) (parseBody (KBody.namespaces pid tid es).type : Contig (Record Cow))
      ((KBody.namespaces pid tid es).enc o cfg) := by
    unfold KBody.enc
    simp only [List.append_assoc]
    exact CEnds.first hend
  rw [show (KRecord.mk misc (.namespaces pid tid es) t).body = .namespaces pid tid es from rfl,
    show (KRecord.mk misc (.namespaces pid tid es) t).misc = misc from rfl, hbody.result]
  rfl

/-- A record with two namespaces at addresses 4 and 8. -/
example : (match (P.parseRecord (Parser.new (⟨4, (KRecord.mk 0 (.namespaces 1 2 [⟨3, 4⟩, ⟨5, 6⟩]) demoNoNs.trailer).enc .little demoCfg⟩ : Slice) demoCfg)).res with
      | .error (.err e) => e == .eof
      | _ => false) = true ∧
    (match (P.parseRecord (Parser.new (⟨8, (KRecord.mk 0 (.namespaces 1 2 [⟨3, 4⟩, ⟨5, 6⟩]) demoNoNs.trailer).enc .little demoCfg⟩ : Slice) demoCfg)).res with
      | .ok (.namespaces ns) => ns.namespaces == .borrowed [⟨3, 4⟩, ⟨5, 6⟩]
      | _ => false) = true := by decide +kernel

/-- A group of two at address 4, followed by the words of another one. -/
example : demoGroupCfg.endian.isNative = true ∧
    (match ((parseReadGroup : P Slice (ReadGroup Cow)) (Parser.new
      ⟨4, demoGroup.enc .little demoGroupCfg.readFormat ++ ([91, 92, 93, 94, 95, 96, 97, 98, 99, 100] : List U64).flatMap (e64 .little)⟩ demoGroupCfg)).res with
    | .ok g => g.data.data.length == (demoGroup.counters.flatMap (KCounter.words demoGroupCfg.readFormat)).length && g.data.data.head? == some 91
    | .error _ => false) = true := by decide +kernel

end
end Perf
