import Verif.Model.Raw
import Verif.Proof.Post
/-!
# The `unsafe` blocks, for any buffer whatsoever

Nothing is assumed of the buffer: its chunks may be empty, may change from one call to the next, its hint may be wrong.
-/
namespace Perf
variable {β : Type} {α α' γ T : Type}

namespace P

theorem pure_bind (a : α) (k : α → P β γ) : (Pure.pure a >>= k) = k a := by
  funext p; rw [P.bind_nil (P.pure_run a p)]

theorem bind_bind (m : P β α) (k : α → P β γ) (l : γ → P β α') : ((m >>= k) >>= l) = (m >>= fun a => k a >>= l) := by
  funext p
  rcases hm : m p with ⟨e | a, q, lg⟩
  · rw [P.bind_err hm, P.bind_err (P.bind_err hm)]
  · rw [P.bind_ok hm]
    rcases hk : k a q with ⟨e | b, r, lg'⟩
    · rw [P.bind_err (by rw [P.bind_ok hm, hk] : (m >>= k) p = ⟨.error e, r, lg ++ lg'⟩), P.bind_err hk]
    · rw [P.bind_ok (by rw [P.bind_ok hm, hk] : (m >>= k) p = ⟨.ok b, r, lg ++ lg'⟩), P.bind_ok hk]
      simp

theorem bind_congr {m : P β α} {k k' : α → P β γ} (h : ∀ a, k a = k' a) : (m >>= k) = (m >>= k') := by
  rw [show k = k' from funext h]

theorem fault_bind (e : Fault) (k : α → P β γ) : ((P.fault e : P β α) >>= k) = P.fault e := by
  funext p; exact P.bind_err rfl

theorem fail_bind (e : ParseError) (k : α → P β γ) : ((P.fail e : P β α) >>= k) = P.fail e := by
  funext p; exact P.bind_err rfl

theorem ite_bind {c : Prop} [Decidable c] (a b : P β α) (k : α → P β γ) :
    ((if c then a else b) >>= k) = if c then a >>= k else b >>= k := by
  split <;> rfl

end P

variable [ParseBuf β]

/-! ## `parse_to_slice` -/

theorem Mem.copyFrom_next (w : List Byte) (tl : Mem) (src : List Byte) (n : Nat) (h1 : n ≤ src.length) (h2 : n ≤ tl.length) :
    Mem.copyFrom (w.map some ++ tl) src w.length n = some ((w ++ src.take n).map some ++ tl.drop n) := by
  unfold Mem.copyFrom
  rw [if_pos ⟨h1, by simp; omega⟩]
  simp [List.drop_append]

theorem P.toSliceRawLoop_eq : ∀ (fuel : Nat) (w : List Byte) (tl : Mem),
    (P.toSliceRawLoop fuel w.length tl.length (w.map some ++ tl) : P β (Option Mem)) =
      (P.toSliceLoop fuel tl.length w >>= fun w' => Pure.pure (some (w'.map some)))
  | 0, _, _ => (P.fault_bind _ _).symm
  | fuel + 1, w, tl => by
    unfold P.toSliceRawLoop P.toSliceLoop
    by_cases h : tl.length = 0
    · rw [if_pos h, if_pos h, P.pure_bind, List.length_eq_zero_iff.1 h, List.append_nil]
    · rw [if_neg h, if_neg h, P.bind_bind]
      refine P.bind_congr fun c => ?_
      dsimp only
      rw [Mem.copyFrom_next w tl c.data _ (Nat.min_le_left _ _) (Nat.min_le_right _ _), P.bind_bind]
      refine P.bind_congr fun _ => ?_
      have := P.toSliceRawLoop_eq fuel (w ++ c.data.take (min c.data.length tl.length)) (tl.drop (min c.data.length tl.length))
      rw [List.length_append, List.length_take, List.length_drop, Nat.min_eq_left (Nat.min_le_left c.data.length _)] at this
      exact this

theorem P.toSliceRaw_eq (mem : Mem) :
    (P.toSliceRaw mem : P β (Option Mem)) = (P.toSlice mem.length >>= fun w => Pure.pure (some (w.map some))) := by
  unfold P.toSliceRaw P.toSlice
  rw [P.bind_bind]
  exact P.bind_congr fun n => P.toSliceRawLoop_eq n [] mem

theorem Post.toSliceLoop : ∀ (fuel len : Nat) (w : List Byte),
    Post (fun o => o.length = w.length + len) (P.toSliceLoop fuel len w : P β (List Byte))
  | 0, _, _ => fun _ _ h => by cases h
  | fuel + 1, len, w => by
    unfold P.toSliceLoop
    refine Post.ite (fun h => Post.pure (by omega)) fun _ => Post.skip fun c => Post.skip fun _ => ?_
    refine (Post.toSliceLoop fuel _ _).mono fun o ho => ?_
    simp only [List.length_append, List.length_take] at ho
    omega

theorem Post.toSlice (len : Nat) : Post (fun o => o.length = len) (P.toSlice len : P β (List Byte)) :=
  Post.skip fun _ => (Post.toSliceLoop _ _ _).mono fun o ho => by simpa using ho

/-! ## `parse_bytes` -/

theorem mapM_some (w : List Byte) : (w.map some).mapM (id : Option Byte → Option Byte) = some w := by
  induction w with
  | nil => rfl
  | cons a w ih => rw [List.map_cons, List.mapM_cons, ih]; rfl

theorem Mem.assumeInit_full (w : List Byte) {n : Nat} (h : n ≤ w.length) : Mem.assumeInit (w.map some) n = some (w.take n) := by
  unfold Mem.assumeInit
  rw [if_pos (by simpa using h), ← List.map_take, mapM_some]

theorem P.bytesRaw_eq (len : Nat) :
    (P.bytesRaw len len : P β (Option (Cow Byte))) = (P.bytes len >>= fun c => Pure.pure (some c)) := by
  unfold P.bytesRaw P.bytes
  rw [P.bind_bind]
  refine P.bind_congr fun o => ?_
  cases o with
  | some x => exact (P.pure_bind _ _).symm
  | none =>
    dsimp only
    rw [P.bind_bind]
    refine P.bind_congr fun h => ?_
    rw [P.ite_bind]
    split
    · rw [P.bind_bind]
      refine P.bind_congr fun _ => ?_
      rw [P.toSliceRaw_eq, P.bind_bind, P.bind_bind, List.length_replicate]
      funext p
      rcases hm : P.toSlice len p with ⟨e | w, q, l⟩
      · rw [P.bind_err hm, P.bind_err hm]
      · rw [P.bind_ok hm, P.bind_ok hm]
        have hl := Post.toSlice (β := β) len p w (by rw [hm])
        rw [P.pure_bind, P.pure_bind]
        dsimp only
        rw [Mem.assumeInit_full w (by omega), List.take_of_length_le (by omega)]
        rfl
    · rw [P.bind_bind]
      exact P.bind_congr fun _ => (P.pure_bind _ _).symm

theorem Post.bytesDirect (len : Nat) : Post (fun o => ∀ x, o = some x → x.2.length = len) (P.bytesDirect len : P β (Option (Nat × List Byte))) := by
  refine Post.skip fun c => ?_
  split
  · exact Post.pure nofun
  · refine Post.ite (fun _ => Post.pure nofun) fun h => Post.skip fun _ => Post.pure ?_
    rintro x ⟨⟩
    simp; omega

theorem Post.bytesSlowLoop : ∀ (fuel len : Nat) (w : List Byte),
    Post (fun o => o.length = w.length + len) (P.bytesSlowLoop fuel len w : P β (List Byte))
  | 0, _, _ => fun _ _ h => by cases h
  | fuel + 1, len, w => by
    unfold P.bytesSlowLoop
    refine Post.ite (fun h => Post.pure (by omega)) fun _ => Post.skip fun c => Post.skip fun _ => ?_
    refine (Post.bytesSlowLoop fuel _ _).mono fun o ho => ?_
    have : (c.truncate len).data.length ≤ len := by
      rw [Chunk.truncate_data, List.length_take]; omega
    simp only [List.length_append] at ho
    omega

theorem Post.bytesSlow (len : Nat) : Post (fun o => o.length = len) (P.bytesSlow len : P β (List Byte)) :=
  Post.skip fun _ => Post.skip fun _ => Post.skip fun _ => (Post.bytesSlowLoop _ _ _).mono fun o ho => by simpa using ho

/-- For any capacity: no undefined behaviour, and `len` bytes. -/
theorem Post.bytesRaw {len cap : Nat} (hc : len ≤ cap) :
    Post (fun o => ∃ c : Cow Byte, o = some c ∧ c.data.length = len) (P.bytesRaw len cap : P β (Option (Cow Byte))) := by
  refine Post.bind (Post.bytesDirect len) fun o ho => ?_
  cases o with
  | some x => exact Post.pure ⟨_, rfl, ho x rfl⟩
  | none =>
    dsimp only
    refine Post.skip fun h => Post.ite (fun _ => Post.skip fun _ => ?_) fun _ => Post.bind (Post.bytesSlow len) fun bs hb => Post.pure ⟨_, rfl, hb⟩
    rw [P.toSliceRaw_eq, P.bind_bind, List.length_replicate]
    refine Post.bind (Post.toSlice cap) fun w hw => ?_
    rw [P.pure_bind]
    dsimp only
    rw [Mem.assumeInit_full w (by omega)]
    exact Post.pure ⟨_, rfl, by simp [Cow.data]; omega⟩

theorem Post.bytes (len : Nat) : Post (fun c => c.data.length = len) (P.bytes len : P β (Cow Byte)) := by
  refine Post.bind (Post.bytesDirect len) fun o ho => ?_
  cases o with
  | some x => exact Post.pure (ho x rfl)
  | none =>
    dsimp only
    refine Post.skip fun h => Post.ite (fun _ => Post.skip fun _ => Post.bind (Post.toSlice len) fun w hw => Post.pure hw) fun _ =>
      Post.bind (Post.bytesSlow len) fun bs hb => Post.pure hb

/-! ## `parse_array` -/

theorem alignTo_one (addr n : Nat) : alignTo addr n 1 1 = (0, n, 0) := by
  simp [alignTo, Nat.mod_one]

theorem P.arraySlowRaw_eq (addr n : Nat) :
    (P.arraySlowRaw addr n : P β (Option (List Byte))) = (P.toSlice n >>= fun w => Pure.pure (some w)) := by
  unfold P.arraySlowRaw
  rw [alignTo_one]
  dsimp only
  rw [P.toSliceRaw_eq, P.bind_bind]
  simp only [List.length_take, List.length_replicate, Nat.min_self, Nat.sub_zero, List.take_zero, List.nil_append,
    Nat.zero_add, List.drop_replicate, Nat.sub_self, List.replicate_zero, List.append_nil]
  funext p
  rcases hm : P.toSlice n p with ⟨e | w, q, l⟩
  · rw [P.bind_err hm, P.bind_err hm]
  · rw [P.bind_ok hm, P.bind_ok hm, P.pure_bind]
    have hl := Post.toSlice (β := β) n p w (by rw [hm])
    dsimp only
    rw [Mem.assumeInit_full w (by omega), List.take_of_length_le (by omega)]

theorem P.arrayRaw_eq (addr n : Nat) :
    (P.arrayRaw addr n : P β (Option (List Byte))) = (P.array n >>= fun w => Pure.pure (some w)) := by
  unfold P.arrayRaw P.array
  rw [P.bind_bind]
  refine P.bind_congr fun c => ?_
  rw [P.ite_bind]
  split
  · exact P.arraySlowRaw_eq addr n
  · rw [P.bind_bind]
    exact P.bind_congr fun _ => (P.pure_bind _ _).symm

theorem Post.array (n : Nat) : Post (fun o => o.length = n) (P.array n : P β (List Byte)) :=
  Post.skip fun _ => Post.ite (fun _ => Post.toSlice n) fun h => Post.skip fun _ => Post.pure (by simp; omega)

/-! ## `parse_slice_direct` -/

/-- An element type as `align_to` sees it: its size is a positive multiple of its alignment. -/
theorem alignTo_whole {addr len size align : Nat} (ha : 0 < align) (hs : 0 < size) :
    (¬ ((alignTo addr (len * size) size align).1 ≠ 0 ∨ (alignTo addr (len * size) size align).2.2 ≠ 0) ↔ len = 0 ∨ addr % align = 0) ∧
    (¬ ((alignTo addr (len * size) size align).1 ≠ 0 ∨ (alignTo addr (len * size) size align).2.2 ≠ 0) →
      (alignTo addr (len * size) size align).2.1 = len) := by
  have hlt := Nat.mod_lt addr ha
  have hdiv : len * size / size = len := Nat.mul_div_cancel _ hs
  have hmod : len * size % size = 0 := Nat.mul_mod_left _ _
  unfold alignTo
  by_cases h0 : addr % align = 0
  · have e : (align - addr % align) % align = 0 := by rw [h0, Nat.sub_zero, Nat.mod_self]
    simp only [e, Nat.not_lt_zero, if_false, Nat.sub_zero, hdiv, hmod]
    exact ⟨⟨fun _ => .inr h0, fun _ => by simp⟩, fun _ => trivial⟩
  · have e : (align - addr % align) % align = align - addr % align := Nat.mod_eq_of_lt (by omega)
    simp only [e]
    split
    · rename_i h
      simp only [ne_eq, not_true, or_false, Decidable.not_not]
      refine ⟨⟨fun h1 => .inl ?_, fun h1 => ?_⟩, fun h1 => ?_⟩
      · rcases Nat.mul_eq_zero.1 h1 with h | h
        · exact h
        · omega
      · rcases h1 with h1 | h1
        · rw [h1, Nat.zero_mul]
        · exact absurd h1 h0
      · rcases Nat.mul_eq_zero.1 h1 with h | h <;> omega
    · rename_i h
      refine ⟨⟨fun h1 => absurd h1 (by simp; omega), fun h1 => ?_⟩, fun h1 => absurd h1 (by simp; omega)⟩
      rcases h1 with h1 | h1
      · rw [h1, Nat.zero_mul] at h; omega
      · exact absurd h1 h0

theorem P.sliceDirectRaw_eq (e : Elem T) (hs : 0 < e.size) (len : Nat) :
    (P.sliceDirectRaw e 8 len : P β (Option (List T))) = P.sliceDirect e len := by
  unfold P.sliceDirectRaw P.sliceDirect
  refine P.bind_congr fun cfg => ?_
  split
  · rfl
  · split
    · rfl
    · funext p
      rcases hm : P.bytesDirect (len * e.size) p with ⟨x | o, q, l⟩
      · rw [P.bind_err hm, P.bind_err hm]
      · rw [P.bind_ok hm, P.bind_ok hm]
        have hl := Post.bytesDirect (β := β) (len * e.size) p o (by rw [hm])
        cases o with
        | none => rfl
        | some x =>
          obtain ⟨addr, bs⟩ := x
          have hl : bs.length = len * e.size := hl _ rfl
          dsimp only
          rw [hl]
          obtain ⟨h1, h2⟩ := alignTo_whole (addr := addr) (len := len) (size := e.size) (align := 8) (by decide) hs
          have hb : bs = [] ↔ len = 0 := by
            rw [← List.length_eq_zero_iff, hl, Nat.mul_eq_zero]
            constructor
            · rintro (h | h) <;> omega
            · exact .inl
          by_cases hc : len = 0 ∨ addr % 8 = 0
          · have hn := h1.2 hc
            rw [if_neg hn, if_pos (by rw [hb]; exact hc), h2 hn]
            have : (alignTo addr (len * e.size) e.size 8).1 = 0 := Decidable.byContradiction fun h => hn (.inl h)
            rw [this, List.drop_zero]
          · rw [if_pos (Decidable.byContradiction fun h => hc (h1.1 h)), if_neg (by rw [hb]; exact hc)]

omit [ParseBuf β] in
theorem Post.repeatedLoop (item : P β T) : ∀ n, Post (fun l => l.length = n) (P.repeatedLoop item n)
  | 0 => Post.pure rfl
  | n + 1 => Post.skip fun _ => Post.bind (Post.repeatedLoop item n) fun l hl => Post.pure (by simp [hl])

theorem Post.repeated (size : Nat) (item : P β T) (n : Nat) : Post (fun l => l.length = n) (P.repeated size item n) :=
  Post.skip fun _ => Post.skip fun _ => Post.repeatedLoop item n

theorem Post.sliceDirect (e : Elem T) (n : Nat) :
    Post (fun o => ∀ l, o = some l → l.length = n) (P.sliceDirect e n : P β (Option (List T))) := by
  refine Post.skip fun cfg => Post.ite (fun _ => Post.pure nofun) fun _ => Post.ite (fun _ => Post.fail _) fun _ => Post.skip fun o => ?_
  cases o with
  | none => exact Post.pure nofun
  | some x =>
    refine Post.ite (fun _ => Post.pure ?_) fun _ => Post.pure nofun
    rintro l ⟨⟩
    exact Elem.decodeAll_length ..

theorem Post.slice (e : Elem T) (item : P β T) (n : Nat) : Post (fun c => c.data.length = n) (P.slice e item n) := by
  refine Post.bind (Post.sliceDirect e n) fun o ho => ?_
  cases o with
  | some l => exact Post.pure (ho l rfl)
  | none => exact Post.bind (Post.repeated _ _ _) fun v hv => Post.pure hv

end Perf
