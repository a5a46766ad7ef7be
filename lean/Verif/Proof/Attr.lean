import Verif.Proof.Top
import Verif.Proof.Encode
import Verif.Spec.KAttr
/-!
# `perf_event_attr`: the code does what the flat parser says
-/
namespace Perf
open ParserM
variable {β : Type} [ParseBuf β] [Lawful β]

section
variable {γ : Type} [ParseBuf γ] [LawfulEof γ]

theorem Refines.attrStep {c : Bool} {f : Attr → P γ Attr} {g : Attr → Spec Attr} (a : Attr)
    (h : ∀ a, Refines Eq (f a) (g a)) : Refines Eq (Perf.attrStep c f a) (Perf.attrStep c g a) := by
  cases c with
  | true => exact h a
  | false => exact Refines.pure rfl

theorem Refines.attrTail (a : Attr) : Refines Eq (Perf.attrTail a : P γ Attr) (Perf.attrTail a) := by
  unfold Perf.attrTail
  refine Refines.bind Refines.rest (fun r r' h => ?_)
  have h' : elems (P γ) r = elems Spec r' := h
  rw [h']
  refine Refines.ite (fun _ => Refines.pure rfl) (fun _ => Refines.fail _)

theorem Refines.attrHead (t s : U32) : Refines Eq (Perf.attrHead t s : P γ Attr) (Perf.attrHead t s) := by
  unfold Perf.attrHead
  have v0 : ∀ a, Refines Eq (attrVer0 a : P γ Attr) (attrVer0 a) := fun a => by unfold attrVer0; refines
  have v1 : ∀ a, Refines Eq (attrVer1 a : P γ Attr) (attrVer1 a) := fun a => by unfold attrVer1; refines
  have v2 : ∀ a, Refines Eq (attrVer2 a : P γ Attr) (attrVer2 a) := fun a => by unfold attrVer2; refines
  have v3 : ∀ a, Refines Eq (attrVer3 a : P γ Attr) (attrVer3 a) := fun a => by unfold attrVer3; refines
  have v4 : ∀ a, Refines Eq (attrVer4 a : P γ Attr) (attrVer4 a) := fun a => by unfold attrVer4; refines
  have v5 : ∀ a, Refines Eq (attrVer5 a : P γ Attr) (attrVer5 a) := fun a => by unfold attrVer5; refines
  have v6 : ∀ a, Refines Eq (attrVer6 a : P γ Attr) (attrVer6 a) := fun a => by unfold attrVer6; refines
  have v7 : ∀ a, Refines Eq (attrVer7 a : P γ Attr) (attrVer7 a) := fun a => by unfold attrVer7; refines
  have v8 : ∀ a, Refines Eq (attrVer8 a : P γ Attr) (attrVer8 a) := fun a => by unfold attrVer8; refines
  refine Refines.bind (Refines.attrStep _ v0) fun _ a h => ?_; subst h
  refine Refines.bind (Refines.attrStep _ v1) fun _ a h => ?_; subst h
  refine Refines.bind (Refines.attrStep _ v2) fun _ a h => ?_; subst h
  refine Refines.bind (Refines.attrStep _ v3) fun _ a h => ?_; subst h
  refine Refines.bind (Refines.attrStep _ v4) fun _ a h => ?_; subst h
  refine Refines.bind (Refines.attrStep _ v5) fun _ a h => ?_; subst h
  refine Refines.bind (Refines.attrStep _ v6) fun _ a h => ?_; subst h
  refine Refines.bind (Refines.attrStep _ v7) fun _ a h => ?_; subst h
  exact Refines.attrStep _ v8

theorem Refines.attrBody (t s : U32) : Refines Eq (Perf.attrBody t s : P γ Attr) (Perf.attrBody t s) := by
  unfold Perf.attrBody
  refine Refines.bind (Refines.attrHead t s) fun _ a h => ?_; subst h
  exact Refines.attrStep _ Refines.attrTail

end

/-- `Parse for perf_event_attr` on every lawful buffer. -/
theorem Refines.attr : Refines Eq (P.parseAttr : P β Attr) Spec.parseAttr := by
  unfold P.parseAttr Spec.parseAttr
  refine Refines.bind Refines.u32 fun t _ h => ?_; subst h
  refine Refines.bind Refines.u32 fun s _ h => ?_; subst h
  refine Refines.ite (fun _ => Refines.fail _) (fun _ => ?_)
  intro p f hp
  have hlim : s.toNat - 4 < usizeLimit := by have := s.isLt; unfold usizeLimit; omega
  obtain ⟨hs, _⟩ := P.splitAt_takes hp hlim
  rcases Nat.lt_or_ge f.s.bytes.length (s.toNat - 4) with hlt | hle
  · have hle : ¬ s.toNat - 4 ≤ f.s.bytes.length := by omega
    rw [if_neg hle] at hs
    rw [P.bind_err (P.run_eq _ hs)]
    simp only [if_neg hle]
    exact rfl
  rw [if_pos hle] at hs
  obtain ⟨rp, hres, hso, hrep, _⟩ := hs
  rw [P.bind_ok (P.run_eq _ hres)]
  simp only [if_pos hle]
  have hr := Refines.attrBody t s rp _ (hso.region hle).rep
  rcases hb : (Perf.attrBody t s : Spec Attr) (f.region (s.toNat - 4)) with e | ⟨a, g⟩
  · rw [hb] at hr
    cases e with
    | stuck => trivial
    | err e =>
      have hr : _ = _ := hr
      rw [P.bind_err (P.onChild_err (P.run_eq _ hr) _)]
      exact rfl
  · rw [hb] at hr
    obtain ⟨a', hr1, rfl, _⟩ := hr
    rw [P.bind_ok (P.onChild_ok (P.run_eq _ hr1) _)]
    exact ⟨_, rfl, rfl, hrep⟩

/-! ## The kernel's layout -/

section
variable {cfg : ParseConfig} {nd : Needs} {k : Nat} {tl : List Byte} {o : Order}

theorem Reads.attrStep {f : Attr → Spec Attr} {c : Bool} {bs : List Byte} {a b : Attr}
    (h : c = true → Reads cfg nd k (f a) bs tl b) :
    Reads cfg nd k (Perf.attrStep c f a) (opt c bs) tl (if c then b else a) := by
  cases c with
  | true => exact h rfl
  | false => exact Reads.pure _

/-- What the parser reads after `type` and `size`, block by block. -/
def kattrBody (o : Order) (a : Attr) (n : Nat) (r2 : U16) (r3 : U32) : List Byte :=
  opt (decide (n ≥ 64)) (kattrFirst o a) ++ (opt (decide (n ≥ 72)) (e64 o a.config2) ++
  (opt (decide (n ≥ 80)) (e64 o a.branchSampleType) ++
  (opt (decide (n ≥ 96)) (e64 o a.sampleRegsUser ++ e32 o a.sampleStackUser ++ e32 o a.clockid) ++
  (opt (decide (n ≥ 104)) (e64 o a.sampleRegsIntr) ++
  (opt (decide (n ≥ 112)) (e32 o a.auxWatermark ++ e16 o a.sampleMaxStack ++ e16 o r2) ++
  (opt (decide (n ≥ 120)) (e32 o a.auxSampleSize ++ e32 o r3) ++
  (opt (decide (n ≥ 128)) (e64 o a.sigData) ++ opt (decide (n ≥ 136)) (e64 o a.config3))))))))

theorem kattrFirst_length (o : Order) (a : Attr) : (kattrFirst o a).length = 56 := by
  simp [kattrFirst]

/-- The structure is the two leading fields and the blocks. -/
theorem kattr_eq (o : Order) (a : Attr) (n : Nat) (r2 : U16) (r3 : U32) (h : n ∈ kattrSizes ∨ 136 < n) :
    kattr o a n r2 r3 = e32 o a.type_ ++ e32 o (BitVec.ofNat 32 n) ++ kattrBody o a n r2 r3 ++
      List.replicate (n - 136) 0#8 := by
  unfold kattr
  congr 1
  rcases h with h | h
  · simp only [kattrSizes, List.mem_cons, List.not_mem_nil, or_false] at h
    rcases h with h | h | h | h | h | h | h | h | h <;> subst h <;>
      simp [kattrFull, kattrBody, List.take_append, kattrFirst_length, List.take_of_length_le]
  · have h' : ∀ m, m ≤ 136 → decide (n ≥ m) = true := fun m hm => by rw [decide_eq_true_eq]; omega
    rw [List.take_of_length_le (by simp [kattrFull, kattrFirst_length]; omega)]
    simp [kattrFull, kattrBody, h']

/-- The blocks, one after the other. -/
theorem Reads.attrHead (hs : Src cfg o) (a : Attr) (n : Nat) (r2 : U16) (r3 : U32) (h : n ∈ kattrSizes ∨ 136 < n)
    (hl : n < 2 ^ 32) :
    Reads cfg nd k (Perf.attrHead a.type_ (BitVec.ofNat 32 n)) (kattrBody o a n r2 r3) tl (a.upTo n) := by
  have hn : (BitVec.ofNat 32 n).toNat = n := toNat_ofNat_lt hl
  have v0 : ∀ (x : Attr) k tl, Reads cfg nd k (attrVer0 x) (kattrFirst o a) tl
      { x with config := a.config, samplePeriod := a.samplePeriod, sampleType := a.sampleType,
               readFormat := a.readFormat, flags := a.flags, wakeupEvents := a.wakeupEvents, bpType := a.bpType,
               config1 := a.config1 } := fun x k tl => by
    unfold attrVer0 kattrFirst; simp only [List.append_assoc]; reads hs
  have v1 : ∀ (x : Attr) k tl, Reads cfg nd k (attrVer1 x) (e64 o a.config2) tl { x with config2 := a.config2 } :=
    fun x k tl => by unfold attrVer1; reads hs
  have v2 : ∀ (x : Attr) k tl, Reads cfg nd k (attrVer2 x) (e64 o a.branchSampleType) tl
      { x with branchSampleType := a.branchSampleType } :=
    fun x k tl => by unfold attrVer2; reads hs
  have v3 : ∀ (x : Attr) k tl, Reads cfg nd k (attrVer3 x)
      (e64 o a.sampleRegsUser ++ e32 o a.sampleStackUser ++ e32 o a.clockid) tl
      { x with sampleRegsUser := a.sampleRegsUser, sampleStackUser := a.sampleStackUser, clockid := a.clockid } :=
    fun x k tl => by unfold attrVer3; simp only [List.append_assoc]; reads hs
  have v4 : ∀ (x : Attr) k tl, Reads cfg nd k (attrVer4 x) (e64 o a.sampleRegsIntr) tl
      { x with sampleRegsIntr := a.sampleRegsIntr } :=
    fun x k tl => by unfold attrVer4; reads hs
  have v5 : ∀ (x : Attr) k tl, Reads cfg nd k (attrVer5 x)
      (e32 o a.auxWatermark ++ e16 o a.sampleMaxStack ++ e16 o r2) tl
      { x with auxWatermark := a.auxWatermark, sampleMaxStack := a.sampleMaxStack } :=
    fun x k tl => by unfold attrVer5; simp only [List.append_assoc]; reads hs
  have v6 : ∀ (x : Attr) k tl, Reads cfg nd k (attrVer6 x) (e32 o a.auxSampleSize ++ e32 o r3) tl
      { x with auxSampleSize := a.auxSampleSize } :=
    fun x k tl => by unfold attrVer6; reads hs
  have v7 : ∀ (x : Attr) k tl, Reads cfg nd k (attrVer7 x) (e64 o a.sigData) tl { x with sigData := a.sigData } :=
    fun x k tl => by unfold attrVer7; reads hs
  have v8 : ∀ (x : Attr) k tl, Reads cfg nd k (attrVer8 x) (e64 o a.config3) tl { x with config3 := a.config3 } :=
    fun x k tl => by unfold attrVer8; reads hs
  unfold Perf.attrHead kattrBody
  simp only [hn]
  refine Reads.congr (Reads.bind (Reads.attrStep fun _ => v0 _ _ _)
    (Reads.bind (Reads.attrStep fun _ => v1 _ _ _) (Reads.bind (Reads.attrStep fun _ => v2 _ _ _)
    (Reads.bind (Reads.attrStep fun _ => v3 _ _ _) (Reads.bind (Reads.attrStep fun _ => v4 _ _ _)
    (Reads.bind (Reads.attrStep fun _ => v5 _ _ _) (Reads.bind (Reads.attrStep fun _ => v6 _ _ _)
    (Reads.bind (Reads.attrStep fun _ => v7 _ _ _) (Reads.attrStep fun _ => v8 _ _ _))))))))) rfl ?_
  rcases h with h | h
  · simp only [kattrSizes, List.mem_cons, List.not_mem_nil, or_false] at h
    rcases h with h | h | h | h | h | h | h | h | h <;> subst h <;> rfl
  · have h' : ∀ m, m ≤ 136 → (m ≤ n) = True := fun m hm => eq_true (by omega)
    simp [Attr.upTo, h', Attr.VER0, Attr.VER1, Attr.VER2, Attr.VER3, Attr.VER4, Attr.VER5, Attr.VER6, Attr.VER7,
      Attr.VER8]

/-- A published size: nothing after the blocks is read. -/
theorem Reads.attrBody (hs : Src cfg o) (a : Attr) (n : Nat) (r2 : U16) (r3 : U32) (h : n ∈ kattrSizes) :
    Reads cfg nd k (Perf.attrBody a.type_ (BitVec.ofNat 32 n)) (kattrBody o a n r2 r3) tl (a.upTo n) := by
  have h' := h
  simp only [kattrSizes, List.mem_cons, List.not_mem_nil, or_false] at h'
  have hl : n < 2 ^ 32 := by omega
  unfold Perf.attrBody
  refine Reads.last (Reads.attrHead hs a n r2 r3 (.inl h) hl) fun _ => ?_
  have : decide ((BitVec.ofNat 32 n).toNat > Attr.VER8) = false := by
    rw [decide_eq_false_iff_not, toNat_ofNat_lt hl]; unfold Attr.VER8; omega
  rw [this]
  exact Reads.pure _

/-- A larger size: the rest is read and has to be zero. -/
theorem Reads.attrBody_zero (hs : Src cfg o) (a : Attr) (n : Nat) (r2 : U16) (r3 : U32) (h : 136 < n) (hl : n < 2 ^ 32)
    (he : nd.eof = true) (z : Nat) (hz : 0 < z) :
    Reads cfg nd k (Perf.attrBody a.type_ (BitVec.ofNat 32 n)) (kattrBody o a n r2 r3 ++ List.replicate z 0#8) []
      (a.upTo n) := by
  unfold Perf.attrBody
  refine Reads.bind (Reads.attrHead hs a n r2 r3 (.inr h) hl) ?_
  have : decide ((BitVec.ofNat 32 n).toNat > Attr.VER8) = true := by
    rw [decide_eq_true_eq, toNat_ofNat_lt hl]; unfold Attr.VER8; omega
  rw [this]
  show Reads _ _ _ (Perf.attrTail _) _ _ _
  unfold Perf.attrTail
  refine Reads.last (Reads.rest he (by cases z <;> simp_all [List.replicate_succ])) fun _ => ?_
  have : (elems Spec (List.replicate z 0#8)).all (· == 0#8) = true := by
    show (List.replicate z 0#8).all (· == 0#8) = true
    simp
  rw [if_pos this]
  exact Reads.pure _

/-- The known fields of a larger structure take 128 bytes, whatever they are. -/
theorem Fixed.attrHead (t s : U32) (h : 136 < s.toNat) : Fixed cfg (Perf.attrHead t s : Spec Attr) 128 := by
  have h' : ∀ m, m ≤ 136 → decide (s.toNat ≥ m) = true := fun m hm => by rw [decide_eq_true_eq]; omega
  have st : ∀ (c : Bool) (g : Attr → Spec Attr) (m : Nat) (a : Attr), c = true → (∀ a, Fixed cfg (g a) m) →
      Fixed cfg (Perf.attrStep c g a) m := by
    intro c g m a hc hg
    subst hc
    exact hg a
  unfold Perf.attrHead
  refine Fixed.bind (n := 56) (m := 72) (st _ _ _ _ (h' _ (by decide)) fun a => ?_) fun a => ?_
  · exact Fixed.bind (n := 8) (m := 48) Fixed.u64 fun _ => Fixed.bind (n := 8) (m := 40) Fixed.u64 fun _ =>
      Fixed.bind (n := 8) (m := 32) Fixed.u64 fun _ => Fixed.bind (n := 8) (m := 24) Fixed.u64 fun _ =>
      Fixed.bind (n := 8) (m := 16) Fixed.u64 fun _ => Fixed.bind (n := 4) (m := 12) Fixed.u32 fun _ =>
      Fixed.bind (n := 4) (m := 8) Fixed.u32 fun _ => Fixed.bind (n := 8) (m := 0) Fixed.u64 fun _ => Fixed.pure _
  refine Fixed.bind (n := 8) (m := 64) (st _ _ _ _ (h' _ (by decide)) fun a => ?_) fun a => ?_
  · exact Fixed.bind (n := 8) (m := 0) Fixed.u64 fun _ => Fixed.pure _
  refine Fixed.bind (n := 8) (m := 56) (st _ _ _ _ (h' _ (by decide)) fun a => ?_) fun a => ?_
  · exact Fixed.bind (n := 8) (m := 0) Fixed.u64 fun _ => Fixed.pure _
  refine Fixed.bind (n := 16) (m := 40) (st _ _ _ _ (h' _ (by decide)) fun a => ?_) fun a => ?_
  · exact Fixed.bind (n := 8) (m := 8) Fixed.u64 fun _ => Fixed.bind (n := 4) (m := 4) Fixed.u32 fun _ =>
      Fixed.bind (n := 4) (m := 0) Fixed.u32 fun _ => Fixed.pure _
  refine Fixed.bind (n := 8) (m := 32) (st _ _ _ _ (h' _ (by decide)) fun a => ?_) fun a => ?_
  · exact Fixed.bind (n := 8) (m := 0) Fixed.u64 fun _ => Fixed.pure _
  refine Fixed.bind (n := 8) (m := 24) (st _ _ _ _ (h' _ (by decide)) fun a => ?_) fun a => ?_
  · exact Fixed.bind (n := 4) (m := 4) Fixed.u32 fun _ => Fixed.bind (n := 2) (m := 2) Fixed.u16 fun _ =>
      Fixed.bind (n := 2) (m := 0) Fixed.u16 fun _ => Fixed.pure _
  refine Fixed.bind (n := 8) (m := 16) (st _ _ _ _ (h' _ (by decide)) fun a => ?_) fun a => ?_
  · exact Fixed.bind (n := 4) (m := 4) Fixed.u32 fun _ => Fixed.bind (n := 4) (m := 0) Fixed.u32 fun _ => Fixed.pure _
  refine Fixed.bind (n := 8) (m := 8) (st _ _ _ _ (h' _ (by decide)) fun a => ?_) fun a => ?_
  · exact Fixed.bind (n := 8) (m := 0) Fixed.u64 fun _ => Fixed.pure _
  refine st _ _ _ _ (h' _ (by decide)) fun a => ?_
  exact Fixed.bind (n := 8) (m := 0) Fixed.u64 fun _ => Fixed.pure _

theorem kattrBody_length (o : Order) (a : Attr) (n : Nat) (r2 : U16) (r3 : U32) (h : n ∈ kattrSizes ∨ 136 < n) :
    (kattrBody o a n r2 r3).length = min n 136 - 8 := by
  rcases h with h | h
  · simp only [kattrSizes, List.mem_cons, List.not_mem_nil, or_false] at h
    rcases h with h | h | h | h | h | h | h | h | h <;> subst h <;> simp [kattrBody, kattrFirst_length]
  · have h' : ∀ m, m ≤ 136 → decide (n ≥ m) = true := fun m hm => by rw [decide_eq_true_eq]; omega
    simp [kattrBody, kattrFirst_length, h']
    omega

/-- What happens after `type` and `size`. -/
def Spec.attrRest (t s : U32) : Spec Attr := fun f =>
  if !Attr.sizeOk s.toNat then
    .error (.err (.custom .invalidRecord s!"{s.toNat} is not a valid size for a perf_event_attr struct"))
  else if s.toNat - 4 ≤ f.s.bytes.length then
    match (Perf.attrBody t s : Spec Attr) (f.region (s.toNat - 4)) with
    | .error e => .error e
    | .ok (a, _) => .ok (a, f.adv (s.toNat - 4))
  else .error (.err f.s.fin)

theorem Spec.parseAttr_head {f : Flat} (hs : Src f.cfg o) (t s : U32) (hb : f.s.bytes = e32 o t ++ e32 o s ++ tl) :
    Spec.parseAttr f = Spec.attrRest t s (f.adv 8) := by
  unfold Spec.parseAttr
  rw [List.append_assoc] at hb
  have h1 := Reads.u32 (nd := ⟨false, false⟩) (k := 0) (tl := e32 o s ++ tl) hs t f rfl nofun nofun hb
  have h2 := Reads.u32 (nd := ⟨false, false⟩) (k := 0) (tl := tl) hs s (f.adv 4) rfl nofun nofun (by simp [hb])
  rw [Spec.bind_ok h1]
  rw [e32_length, Spec.bind_ok h2, e32_length, Flat.adv_adv]
  unfold Spec.attrRest
  cases Attr.sizeOk s.toNat <;> rfl

theorem Spec.attrRest_ok {t s : U32} {f g : Flat} {a : Attr} (h : Attr.sizeOk s.toNat = true)
    (hl : s.toNat - 4 ≤ f.s.bytes.length) (hb : (Perf.attrBody t s : Spec Attr) (f.region (s.toNat - 4)) = .ok (a, g)) :
    Spec.attrRest t s f = .ok (a, f.adv (s.toNat - 4)) := by
  unfold Spec.attrRest
  rw [h, if_neg (by decide), if_pos hl]
  simp only [hb]

theorem Spec.attrRest_err {t s : U32} {f : Flat} {e : SFault} (h : Attr.sizeOk s.toNat = true)
    (hl : s.toNat - 4 ≤ f.s.bytes.length) (hb : (Perf.attrBody t s : Spec Attr) (f.region (s.toNat - 4)) = .error e) :
    Spec.attrRest t s f = .error e := by
  unfold Spec.attrRest
  rw [h, if_neg (by decide), if_pos hl]
  simp only [hb]

theorem Spec.attrRest_short {t s : U32} {f : Flat} (h : Attr.sizeOk s.toNat = true)
    (hl : ¬ s.toNat - 4 ≤ f.s.bytes.length) : Spec.attrRest t s f = .error (.err f.s.fin) := by
  unfold Spec.attrRest
  rw [h, if_neg (by decide), if_neg hl]

theorem drop_head (o : Order) (x y : U32) (l : List Byte) : (e32 o x ++ (e32 o y ++ l)).drop 8 = l := by
  rw [← List.append_assoc, List.drop_left' (by simp)]

theorem Attr.sizeOk_iff (n : Nat) : Attr.sizeOk n = true ↔ n ∈ kattrSizes ∨ 136 < n := by
  simp [Attr.sizeOk, kattrSizes, Attr.VER0, Attr.VER1, Attr.VER2, Attr.VER3, Attr.VER4, Attr.VER5, Attr.VER6, Attr.VER7,
      Attr.VER8, or_assoc]

end

end Perf
