import Verif.Model.MendedAttr
import Verif.Proof.Attr
import Verif.Proof.IReads
import Verif.Proof.MendedTop
import Verif.Proof.Sound
/-!
# The corrected `perf_event_attr` parser does what the ideal one says
-/
namespace Perf
open ParserM
variable {β : Type} [ParseBuf β] [Lawful β]

section
variable {γ : Type} [ParseBuf γ] [LawfulEof γ]

theorem Mends.attrStep {c : Bool} {f : Attr → Mend γ Attr} {g : Attr → Ideal Attr} (a : Attr)
    (h : ∀ a, Mends Eq (f a) (g a)) : Mends Eq (Perf.attrStep c f a) (Perf.attrStep c g a) := by
  cases c with
  | true => exact h a
  | false => exact Mends.pure rfl

theorem Mends.attrTail (a : Attr) : Mends Eq (Perf.attrTail a : Mend γ Attr) (Perf.attrTail a) := by
  unfold Perf.attrTail
  refine Mends.bind Mends.rest (fun r r' h => ?_)
  have h' : elems (Mend γ) r = elems Ideal r' := h
  rw [h']
  exact Mends.ite (fun _ => Mends.pure rfl) (fun _ => Mends.fail _)

theorem Mends.attrHead (t s : U32) : Mends Eq (Perf.attrHead t s : Mend γ Attr) (Perf.attrHead t s) := by
  unfold Perf.attrHead
  have v0 : ∀ a, Mends Eq (attrVer0 a : Mend γ Attr) (attrVer0 a) := fun a => by unfold attrVer0; meets
  have v1 : ∀ a, Mends Eq (attrVer1 a : Mend γ Attr) (attrVer1 a) := fun a => by unfold attrVer1; meets
  have v2 : ∀ a, Mends Eq (attrVer2 a : Mend γ Attr) (attrVer2 a) := fun a => by unfold attrVer2; meets
  have v3 : ∀ a, Mends Eq (attrVer3 a : Mend γ Attr) (attrVer3 a) := fun a => by unfold attrVer3; meets
  have v4 : ∀ a, Mends Eq (attrVer4 a : Mend γ Attr) (attrVer4 a) := fun a => by unfold attrVer4; meets
  have v5 : ∀ a, Mends Eq (attrVer5 a : Mend γ Attr) (attrVer5 a) := fun a => by unfold attrVer5; meets
  have v6 : ∀ a, Mends Eq (attrVer6 a : Mend γ Attr) (attrVer6 a) := fun a => by unfold attrVer6; meets
  have v7 : ∀ a, Mends Eq (attrVer7 a : Mend γ Attr) (attrVer7 a) := fun a => by unfold attrVer7; meets
  have v8 : ∀ a, Mends Eq (attrVer8 a : Mend γ Attr) (attrVer8 a) := fun a => by unfold attrVer8; meets
  refine Mends.bind (Mends.attrStep _ v0) fun _ a h => ?_; subst h
  refine Mends.bind (Mends.attrStep _ v1) fun _ a h => ?_; subst h
  refine Mends.bind (Mends.attrStep _ v2) fun _ a h => ?_; subst h
  refine Mends.bind (Mends.attrStep _ v3) fun _ a h => ?_; subst h
  refine Mends.bind (Mends.attrStep _ v4) fun _ a h => ?_; subst h
  refine Mends.bind (Mends.attrStep _ v5) fun _ a h => ?_; subst h
  refine Mends.bind (Mends.attrStep _ v6) fun _ a h => ?_; subst h
  refine Mends.bind (Mends.attrStep _ v7) fun _ a h => ?_; subst h
  exact Mends.attrStep _ v8

theorem Mends.attrBody (t s : U32) : Mends Eq (Perf.attrBody t s : Mend γ Attr) (Perf.attrBody t s) := by
  unfold Perf.attrBody
  refine Mends.bind (Mends.attrHead t s) fun _ a h => ?_; subst h
  exact Mends.attrStep _ Mends.attrTail

end

/-- What follows `type` and `size`. -/
def Ideal.attrRest (t s : U32) : Ideal Attr := fun i =>
  if !Attr.sizeOk s.toNat then
    .error (.custom .invalidRecord s!"{s.toNat} is not a valid size for a perf_event_attr struct")
  else if s.toNat - 8 ≤ i.bytes.length then
    match (Perf.attrBody t s : Ideal Attr) (Ideal.region i (s.toNat - 8)) with
    | .error e => .error e
    | .ok (a, _) => .ok (a, i.adv (s.toNat - 8))
  else .error i.fin

/-- `perf_event_attr` from a sequence of bytes. -/
def Ideal.parseAttr : Ideal Attr := do
  let t ← parseU32
  let s ← parseU32
  Ideal.attrRest t s

theorem Mends.attr : Mends Eq (Mend.parseAttr : P β Attr) Ideal.parseAttr := by
  unfold Mend.parseAttr Ideal.parseAttr
  refine Mends.bind Mends.u32 fun t _ h => ?_; subst h
  refine Mends.bind Mends.u32 fun s _ h => ?_; subst h
  intro p i al hp
  unfold Ideal.attrRest
  cases hok : Attr.sizeOk s.toNat with
  | false => exact rfl
  | true =>
  show Yields Eq ((do
    let child ← P.splitAt (s.toNat - 8)
    let r ← P.onChild child (Perf.attrBody t s : Mend Cursor Attr)
    Pure.pure r.1 : P β Attr) p) _
  rw [if_neg (by decide)]
  have hlim : s.toNat - 8 < usizeLimit := by have := s.isLt; unfold usizeLimit; omega
  obtain ⟨hs, _⟩ := P.splitAt_takes hp hlim
  rcases Nat.lt_or_ge i.bytes.length (s.toNat - 8) with hlt | hle
  · have hle : ¬ s.toNat - 8 ≤ i.bytes.length := by omega
    rw [if_neg (show ¬ s.toNat - 8 ≤ (i.flat al).s.bytes.length from hle)] at hs
    rw [P.bind_err (P.run_eq _ hs), if_neg hle]
    exact rfl
  rw [if_pos (show s.toNat - 8 ≤ (i.flat al).s.bytes.length from hle)] at hs
  obtain ⟨rp, hres, hso, hrep, _⟩ := hs
  rw [P.bind_ok (P.run_eq _ hres), if_pos hle]
  have hr := Mends.attrBody t s rp (Ideal.region i (s.toNat - 8)) _ (hso.region (f := i.flat al) hle).rep
  rcases hb : (Perf.attrBody t s : Ideal Attr) (Ideal.region i (s.toNat - 8)) with e | ⟨a, g⟩
  · rw [hb] at hr
    rw [P.bind_err (P.onChild_err (P.run_eq _ hr) _)]
    exact rfl
  · rw [hb] at hr
    obtain ⟨a', al', hr1, rfl, _⟩ := hr
    rw [P.bind_ok (P.onChild_ok (P.run_eq _ hr1) _)]
    exact ⟨_, _, rfl, rfl, hrep⟩

/-! ## The kernel's layout -/

section
variable {cfg : ParseConfig} {tl : List Byte} {o : Order}

theorem IReads.attrStep {f : Attr → Ideal Attr} {c : Bool} {bs : List Byte} {a b : Attr}
    (h : c = true → IReads cfg (f a) bs tl b) :
    IReads cfg (Perf.attrStep c f a) (opt c bs) tl (if c then b else a) := by
  cases c with
  | true => exact h rfl
  | false => exact IReads.pure _

theorem IReads.congr {α : Type} {s : Ideal α} {bs bs' : List Byte} {a a' : α} (h : IReads cfg s bs tl a) (hb : bs = bs') (ha : a = a') :
    IReads cfg s bs' tl a' := by
  subst hb ha
  exact h

/-- The blocks, one after the other. -/
theorem IReads.attrHead (hs : Src cfg o) (a : Attr) (n : Nat) (r2 : U16) (r3 : U32) (h : n ∈ kattrSizes ∨ 136 < n)
    (hl : n < 2 ^ 32) :
    IReads cfg (Perf.attrHead a.type_ (BitVec.ofNat 32 n)) (kattrBody o a n r2 r3) tl (a.upTo n) := by
  have hn : (BitVec.ofNat 32 n).toNat = n := toNat_ofNat_lt hl
  have v0 : ∀ (x : Attr) tl, IReads cfg (attrVer0 x) (kattrFirst o a) tl
      { x with config := a.config, samplePeriod := a.samplePeriod, sampleType := a.sampleType,
               readFormat := a.readFormat, flags := a.flags, wakeupEvents := a.wakeupEvents, bpType := a.bpType,
               config1 := a.config1 } := fun x tl => by
    unfold attrVer0 kattrFirst; simp only [List.append_assoc]; ireads hs
  have v1 : ∀ (x : Attr) tl, IReads cfg (attrVer1 x) (e64 o a.config2) tl { x with config2 := a.config2 } :=
    fun x tl => by unfold attrVer1; ireads hs
  have v2 : ∀ (x : Attr) tl, IReads cfg (attrVer2 x) (e64 o a.branchSampleType) tl
      { x with branchSampleType := a.branchSampleType } :=
    fun x tl => by unfold attrVer2; ireads hs
  have v3 : ∀ (x : Attr) tl, IReads cfg (attrVer3 x)
      (e64 o a.sampleRegsUser ++ e32 o a.sampleStackUser ++ e32 o a.clockid) tl
      { x with sampleRegsUser := a.sampleRegsUser, sampleStackUser := a.sampleStackUser, clockid := a.clockid } :=
    fun x tl => by unfold attrVer3; simp only [List.append_assoc]; ireads hs
  have v4 : ∀ (x : Attr) tl, IReads cfg (attrVer4 x) (e64 o a.sampleRegsIntr) tl
      { x with sampleRegsIntr := a.sampleRegsIntr } :=
    fun x tl => by unfold attrVer4; ireads hs
  have v5 : ∀ (x : Attr) tl, IReads cfg (attrVer5 x)
      (e32 o a.auxWatermark ++ e16 o a.sampleMaxStack ++ e16 o r2) tl
      { x with auxWatermark := a.auxWatermark, sampleMaxStack := a.sampleMaxStack } :=
    fun x tl => by unfold attrVer5; simp only [List.append_assoc]; ireads hs
  have v6 : ∀ (x : Attr) tl, IReads cfg (attrVer6 x) (e32 o a.auxSampleSize ++ e32 o r3) tl
      { x with auxSampleSize := a.auxSampleSize } :=
    fun x tl => by unfold attrVer6; ireads hs
  have v7 : ∀ (x : Attr) tl, IReads cfg (attrVer7 x) (e64 o a.sigData) tl { x with sigData := a.sigData } :=
    fun x tl => by unfold attrVer7; ireads hs
  have v8 : ∀ (x : Attr) tl, IReads cfg (attrVer8 x) (e64 o a.config3) tl { x with config3 := a.config3 } :=
    fun x tl => by unfold attrVer8; ireads hs
  unfold Perf.attrHead kattrBody
  simp only [hn]
  refine IReads.congr (IReads.bind (IReads.attrStep fun _ => v0 _ _)
    (IReads.bind (IReads.attrStep fun _ => v1 _ _) (IReads.bind (IReads.attrStep fun _ => v2 _ _)
    (IReads.bind (IReads.attrStep fun _ => v3 _ _) (IReads.bind (IReads.attrStep fun _ => v4 _ _)
    (IReads.bind (IReads.attrStep fun _ => v5 _ _) (IReads.bind (IReads.attrStep fun _ => v6 _ _)
    (IReads.bind (IReads.attrStep fun _ => v7 _ _) (IReads.attrStep fun _ => v8 _ _))))))))) rfl ?_
  rcases h with h | h
  · simp only [kattrSizes, List.mem_cons, List.not_mem_nil, or_false] at h
    rcases h with h | h | h | h | h | h | h | h | h <;> subst h <;> rfl
  · have h' : ∀ m, m ≤ 136 → (m ≤ n) = True := fun m hm => eq_true (by omega)
    simp [Attr.upTo, h', Attr.VER0, Attr.VER1, Attr.VER2, Attr.VER3, Attr.VER4, Attr.VER5, Attr.VER6, Attr.VER7,
      Attr.VER8]

/-- The whole structure after `type` and `size`; what is after the known fields has to be zero. -/
theorem IReads.attrBody (hs : Src cfg o) (a : Attr) (n : Nat) (r2 : U16) (r3 : U32) (h : n ∈ kattrSizes ∨ 136 < n) (hl : n < 2 ^ 32) :
    IReads cfg (Perf.attrBody a.type_ (BitVec.ofNat 32 n)) (kattrBody o a n r2 r3 ++ List.replicate (n - 136) 0#8) []
      (a.upTo n) := by
  have hn : (BitVec.ofNat 32 n).toNat = n := toNat_ofNat_lt hl
  unfold Perf.attrBody
  refine IReads.bind (IReads.attrHead hs a n r2 r3 h hl) ?_
  rw [hn]
  by_cases h136 : 136 < n
  · rw [show decide (n > Attr.VER8) = true by rw [decide_eq_true_eq]; exact h136]
    show IReads _ (Perf.attrTail _) _ _ _
    unfold Perf.attrTail
    refine IReads.last IReads.rest ?_
    rw [if_pos (show (elems Ideal (List.replicate (n - 136) 0#8)).all (· == 0#8) = true by
      show (List.replicate (n - 136) 0#8).all (· == 0#8) = true
      simp)]
    exact IReads.pure _
  · rw [show decide (n > Attr.VER8) = false by rw [decide_eq_false_iff_not]; exact h136,
      show n - 136 = 0 by omega]
    exact IReads.pure _

/-- A larger structure with something in the fields that are not known. -/
theorem Ideal.attrBody_unknown (hs : Src cfg o) (a : Attr) (n : Nat) (r2 : U16) (r3 : U32) (h : 136 < n) (hl : n < 2 ^ 32) {i : Input}
    {unknown : List Byte} (hc : i.cfg = cfg) (he : i.fin.kind = .eof) (hb : i.bytes = kattrBody o a n r2 r3 ++ unknown)
    (hu : ∃ b ∈ unknown, b ≠ 0#8) :
    (Perf.attrBody a.type_ (BitVec.ofNat 32 n) : Ideal Attr) i = .error (.custom .unsupportedData
      "serialized perf_event_attr contains fields not supported by this version of perf-event-data") := by
  have hn : (BitVec.ofNat 32 n).toNat = n := toNat_ofNat_lt hl
  unfold Perf.attrBody
  rw [Ideal.bind_ok (IReads.attrHead hs a n r2 r3 (.inr h) hl i hc he hb), hn,
    show decide (n > Attr.VER8) = true by rw [decide_eq_true_eq]; exact h]
  show (Perf.attrTail _ : Ideal Attr) _ = _
  unfold Perf.attrTail
  have hr : (ParserM.rest : Ideal (List Byte)) (i.adv (kattrBody o a n r2 r3).length) = _ :=
    IReads.rest (cfg := cfg) (bs := unknown) _ hc he (by simp [hb])
  rw [Ideal.bind_ok hr, if_neg (by
      obtain ⟨b, hb1, hb2⟩ := hu
      intro h
      exact hb2 (eq_of_beq (List.all_eq_true.1 h b hb1)))]
  rfl

/-- The two leading fields. -/
theorem Ideal.parseAttr_eq {i : Input} (h : 8 ≤ i.bytes.length) : Ideal.parseAttr i =
    Ideal.attrRest (i.cfg.endian.conv32 (i.bytes.take 4)) (i.cfg.endian.conv32 ((i.bytes.drop 4).take 4)) (i.adv 8) := by
  unfold Ideal.parseAttr
  have h1 : (parseU32 : Ideal U32) i = .ok (i.cfg.endian.conv32 (i.bytes.take 4), i.adv 4) :=
    (Ideal.bind_ok (m := Ideal.take 4) (Ideal.take_ok (by omega))).trans rfl
  have h2 : (parseU32 : Ideal U32) (i.adv 4) = .ok (i.cfg.endian.conv32 ((i.bytes.drop 4).take 4), i.adv 8) := by
    refine (Ideal.bind_ok (m := Ideal.take 4) (Ideal.take_ok (by rw [Input.adv_bytes, List.length_drop]; omega))).trans ?_
    rw [Input.adv_adv]
    rfl
  rw [Ideal.bind_ok h1, Ideal.bind_ok h2]

theorem Ideal.parseAttr_head {i : Input} (hs : Src i.cfg o) (t s : U32) (hb : i.bytes = e32 o t ++ (e32 o s ++ tl)) :
    Ideal.parseAttr i = Ideal.attrRest t s (i.adv 8) := by
  rw [Ideal.parseAttr_eq (by rw [hb]; simp; omega), hb, List.take_left' (e32_length o t), List.drop_left' (e32_length o t),
    List.take_left' (e32_length o s), hs.conv32, hs.conv32]

theorem Ideal.parseAttr_short {i : Input} (h : i.bytes.length < 8) : Ideal.parseAttr i = .error i.fin := by
  unfold Ideal.parseAttr
  rcases Nat.lt_or_ge i.bytes.length 4 with h4 | h4
  · exact Ideal.bind_err ((Ideal.bind_err (m := Ideal.take 4) (Ideal.take_short h4)).trans rfl)
  · have h1 : (parseU32 : Ideal U32) i = .ok (i.cfg.endian.conv32 (i.bytes.take 4), i.adv 4) :=
      (Ideal.bind_ok (m := Ideal.take 4) (Ideal.take_ok h4)).trans rfl
    rw [Ideal.bind_ok h1]
    exact Ideal.bind_err ((Ideal.bind_err (m := Ideal.take 4)
      (Ideal.take_short (by rw [Input.adv_bytes, List.length_drop]; omega))).trans rfl)

theorem Ideal.attrRest_ok {t s : U32} {i j : Input} {a : Attr} (h : Attr.sizeOk s.toNat = true)
    (hl : s.toNat - 8 ≤ i.bytes.length) (hb : (Perf.attrBody t s : Ideal Attr) (Ideal.region i (s.toNat - 8)) = .ok (a, j)) :
    Ideal.attrRest t s i = .ok (a, i.adv (s.toNat - 8)) := by
  unfold Ideal.attrRest
  rw [h, if_neg (by decide), if_pos hl]
  simp only [hb]

theorem Ideal.attrRest_err {t s : U32} {i : Input} {e : ParseError} (h : Attr.sizeOk s.toNat = true)
    (hl : s.toNat - 8 ≤ i.bytes.length) (hb : (Perf.attrBody t s : Ideal Attr) (Ideal.region i (s.toNat - 8)) = .error e) :
    Ideal.attrRest t s i = .error e := by
  unfold Ideal.attrRest
  rw [h, if_neg (by decide), if_pos hl]
  simp only [hb]

theorem Ideal.attrRest_short {t s : U32} {i : Input} (h : Attr.sizeOk s.toNat = true)
    (hl : i.bytes.length < s.toNat - 8) : Ideal.attrRest t s i = .error i.fin := by
  unfold Ideal.attrRest
  rw [h, if_neg (by decide), if_neg (by omega)]

theorem Ideal.attrRest_size {t s : U32} {i : Input} (h : Attr.sizeOk s.toNat = false) :
    Ideal.attrRest t s i =
      .error (.custom .invalidRecord s!"{s.toNat} is not a valid size for a perf_event_attr struct") := by
  unfold Ideal.attrRest
  rw [h]
  rfl

/-! ## Every sequence of bytes is an attr, of some size -/

theorem e16_surj (o : Order) {bs : List Byte} (h : bs.length = 2) : ∃ x : U16, bs = e16 o x := enc_surj o 2 bs h
theorem e32_surj (o : Order) {bs : List Byte} (h : bs.length = 4) : ∃ x : U32, bs = e32 o x := enc_surj o 4 bs h
theorem e64_surj (o : Order) {bs : List Byte} (h : bs.length = 8) : ∃ x : U64, bs = e64 o x := enc_surj o 8 bs h

/-- Cut a list. -/
theorem cutBytes (n : Nat) {bs : List Byte} {m : Nat} (h : bs.length = n + m) : ∃ xs ys, bs = xs ++ ys ∧ xs.length = n ∧ ys.length = m :=
  ⟨bs.take n, bs.drop n, (List.take_append_drop n bs).symm, by rw [List.length_take]; omega, by rw [List.length_drop]; omega⟩

theorem kattrFull_surj (o : Order) (x1 x2 : U32) {bs : List Byte} (h : bs.length = 128) :
    ∃ (a : Attr) (r2 : U16) (r3 : U32), a.type_ = x1 ∧ e32 o x1 ++ e32 o x2 ++ bs = kattrFull o a x2.toNat r2 r3 := by
  obtain ⟨b3, bs, rfl, l3, h⟩ := cutBytes 8 (m := 120) h
  obtain ⟨b4, bs, rfl, l4, h⟩ := cutBytes 8 (m := 112) h
  obtain ⟨b5, bs, rfl, l5, h⟩ := cutBytes 8 (m := 104) h
  obtain ⟨b6, bs, rfl, l6, h⟩ := cutBytes 8 (m := 96) h
  obtain ⟨b7, bs, rfl, l7, h⟩ := cutBytes 8 (m := 88) h
  obtain ⟨b8, bs, rfl, l8, h⟩ := cutBytes 4 (m := 84) h
  obtain ⟨b9, bs, rfl, l9, h⟩ := cutBytes 4 (m := 80) h
  obtain ⟨b10, bs, rfl, l10, h⟩ := cutBytes 8 (m := 72) h
  obtain ⟨b11, bs, rfl, l11, h⟩ := cutBytes 8 (m := 64) h
  obtain ⟨b12, bs, rfl, l12, h⟩ := cutBytes 8 (m := 56) h
  obtain ⟨b13, bs, rfl, l13, h⟩ := cutBytes 8 (m := 48) h
  obtain ⟨b14, bs, rfl, l14, h⟩ := cutBytes 4 (m := 44) h
  obtain ⟨b15, bs, rfl, l15, h⟩ := cutBytes 4 (m := 40) h
  obtain ⟨b16, bs, rfl, l16, h⟩ := cutBytes 8 (m := 32) h
  obtain ⟨b17, bs, rfl, l17, h⟩ := cutBytes 4 (m := 28) h
  obtain ⟨b18, bs, rfl, l18, h⟩ := cutBytes 2 (m := 26) h
  obtain ⟨b19, bs, rfl, l19, h⟩ := cutBytes 2 (m := 24) h
  obtain ⟨b20, bs, rfl, l20, h⟩ := cutBytes 4 (m := 20) h
  obtain ⟨b21, bs, rfl, l21, h⟩ := cutBytes 4 (m := 16) h
  obtain ⟨b22, b23, rfl, l22, l23⟩ := cutBytes 8 (m := 8) h
  obtain ⟨x3, rfl⟩ := e64_surj o l3
  obtain ⟨x4, rfl⟩ := e64_surj o l4
  obtain ⟨x5, rfl⟩ := e64_surj o l5
  obtain ⟨x6, rfl⟩ := e64_surj o l6
  obtain ⟨x7, rfl⟩ := e64_surj o l7
  obtain ⟨x8, rfl⟩ := e32_surj o l8
  obtain ⟨x9, rfl⟩ := e32_surj o l9
  obtain ⟨x10, rfl⟩ := e64_surj o l10
  obtain ⟨x11, rfl⟩ := e64_surj o l11
  obtain ⟨x12, rfl⟩ := e64_surj o l12
  obtain ⟨x13, rfl⟩ := e64_surj o l13
  obtain ⟨x14, rfl⟩ := e32_surj o l14
  obtain ⟨x15, rfl⟩ := e32_surj o l15
  obtain ⟨x16, rfl⟩ := e64_surj o l16
  obtain ⟨x17, rfl⟩ := e32_surj o l17
  obtain ⟨x18, rfl⟩ := e16_surj o l18
  obtain ⟨x19, rfl⟩ := e16_surj o l19
  obtain ⟨x20, rfl⟩ := e32_surj o l20
  obtain ⟨x21, rfl⟩ := e32_surj o l21
  obtain ⟨x22, rfl⟩ := e64_surj o l22
  obtain ⟨x23, rfl⟩ := e64_surj o l23
  refine ⟨{ type_ := x1, config := x3, samplePeriod := x4, sampleType := x5, readFormat := x6, flags := x7, wakeupEvents := x8,
            bpType := x9, config1 := x10, config2 := x11, branchSampleType := x12, sampleRegsUser := x13, sampleStackUser := x14,
            clockid := x15, sampleRegsIntr := x16, auxWatermark := x17, sampleMaxStack := x18, auxSampleSize := x20, sigData := x22,
            config3 := x23 }, x19, x21, rfl, ?_⟩
  have : BitVec.ofNat 32 x2.toNat = x2 := by simp
  simp only [kattrFull, kattrFirst, List.append_assoc, this]

/-- Whatever the bytes, they are those of an attr of their size, followed by bytes that are not known. -/
theorem kattr_surj (o : Order) (t : U32) {n : Nat} (h : n ∈ kattrSizes ∨ 136 < n) (hl : n < 2 ^ 32) {rest : List Byte}
    (hb : rest.length = n - 8) :
    ∃ (a : Attr) (r2 : U16) (r3 : U32), a.type_ = t ∧ rest = kattrBody o a n r2 r3 ++ rest.drop 128 := by
  have h8 : 8 ≤ n := by
    rcases h with h | h
    · simp only [kattrSizes, List.mem_cons, List.not_mem_nil, or_false] at h; omega
    · omega
  obtain ⟨a, r2, r3, ht, hf⟩ := kattrFull_surj o t (BitVec.ofNat 32 n) (bs := rest.take 128 ++ List.replicate (128 - (n - 8)) 0#8) (by
    rw [List.length_append, List.length_take, List.length_replicate]; omega)
  refine ⟨a, r2, r3, ht, ?_⟩
  have hk := kattr_eq o a n r2 r3 h
  unfold kattr at hk
  rw [toNat_ofNat_lt hl] at hf
  rw [← hf, ht] at hk
  have hk := List.append_cancel_right hk
  rw [List.take_append, List.take_of_length_le (by simp; omega)] at hk
  have hk := List.append_cancel_left hk
  rw [List.length_append, e32_length, e32_length, List.take_append, List.length_take] at hk
  rw [List.take_of_length_le (by rw [List.length_take]; omega),
    show n - (4 + 4) - min 128 rest.length = n - 8 - min 128 (n - 8) by rw [hb]] at hk
  have : (List.replicate (128 - (n - 8)) 0#8).take (n - 8 - min 128 (n - 8)) = [] := by
    rw [List.take_replicate, show min (n - 8 - min 128 (n - 8)) (128 - (n - 8)) = 0 by omega]; rfl
  rw [this, List.append_nil] at hk
  rw [← hk, List.take_append_drop]

end
end Perf
