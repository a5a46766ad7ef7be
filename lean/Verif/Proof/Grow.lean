import Verif.Proof.Heap
/-!
# How much memory a call requests in total, counting every request

A vector that grows at least doubles, so all requests for it together are at most twice its last capacity, and that is at
most eight times what it holds.
-/
namespace Perf
variable {β : Type} {α α' T : Type}

theorem leastCap_le (size : Nat) : leastCap size ≤ 8 := by
  unfold leastCap
  split
  · omega
  · split <;> omega

/-- What growing a vector costs. -/
theorem Heap.reserve_cost (size cap need : Nat) (p : Parser β) : ∃ cap' l,
    (Heap.reserve size cap need : P β Nat) p = ⟨.ok cap', p, l⟩ ∧ l.sum + 2 * (cap * size) ≤ 2 * (cap' * size) ∧
      (cap' = cap ∨ cap' ≤ 8 * need) := by
  rw [Heap.reserve_run]
  by_cases h : need ≤ cap
  · rw [if_pos h]
    exact ⟨cap, [], rfl, by simp, .inl rfl⟩
  · rw [if_neg h]
    have h8 := leastCap_le size
    refine ⟨_, _, rfl, ?_, .inr ?_⟩
    · have h2 : 2 * cap ≤ grow (leastCap size) cap need := by unfold grow; omega
      have h3 := Nat.mul_le_mul_right size h2
      rw [Nat.mul_assoc] at h3
      simp only [List.sum_cons, List.sum_nil]
      omega
    · unfold grow; omega

theorem P.advance_or [ParseBuf β] (n : Nat) (p : Parser β) : P.advance n p = ⟨.error .panic, p, []⟩ ∨
    ∃ q, P.advance n p = ⟨.ok (), q, []⟩ ∧ q.data.offset = p.data.offset + n := by
  unfold P.advance
  rcases hb : ParseBuf.advance p.data.buf n with _ | b
  · have hd : ParseBuf.advance p.data n = none := by
      show (ParseBuf.advance p.data.buf n).map _ = none
      rw [hb]; rfl
    rw [hd]
    exact .inl rfl
  · have hd : ParseBuf.advance p.data n = some ⟨b, p.data.offset + n⟩ := by
      show (ParseBuf.advance p.data.buf n).map _ = _
      rw [hb]; rfl
    rw [hd]
    exact .inr ⟨_, rfl, rfl⟩

/-- All requests of `m` are paid by `K` times the bytes it consumes, up to `B` if it fails. -/
def Grows (I : Parser β → Prop) (K B : Nat) (m : P β α) : Prop :=
  ∀ p, I p → I (m p).st ∧ p.data.offset ≤ (m p).st.data.offset ∧
    (m p).log.sum ≤ K * ((m p).st.data.offset - p.data.offset) + slack B (m p).res

namespace Grows
variable {I : Parser β → Prop} {B K : Nat}

theorem _root_.Perf.Eats.grows {n : Nat} {m : P β α} (h : Eats I n m) : Grows I K B m := fun p hp =>
  ⟨(h p hp).1, (h p hp).2.2.1, by rw [(h p hp).2.1]; exact Nat.zero_le _⟩

theorem slack_le {A : Nat} (h : A ≤ B) (r : Except Fault α) : slack A r ≤ slack B r := by
  cases r with
  | ok _ => exact Nat.le_refl _
  | error _ => exact h

theorem mono {K' B' : Nat} {m : P β α} (h : Grows I K B m) (hk : K ≤ K') (hb : B ≤ B') : Grows I K' B' m := fun p hp =>
  let ⟨h1, h2, h3⟩ := h p hp
  ⟨h1, h2, Nat.le_trans h3 (Nat.add_le_add (Nat.mul_le_mul_right _ hk) (slack_le hb _))⟩

theorem bind {m : P β α} {c : α → P β α'} (h : Grows I K B m) (hc : ∀ a, Grows I K B (c a)) : Grows I K B (m >>= c) := by
  intro p hp
  obtain ⟨h1, h2, h3⟩ := h p hp
  rcases hm : (m p).res with e | a
  · rw [P.bind_err (P.run_eq _ hm)]
    rw [hm] at h3
    exact ⟨h1, h2, h3⟩
  · rw [P.bind_ok (P.run_eq _ hm)]
    rw [hm] at h3
    simp only [slack] at h3
    obtain ⟨g1, g2, g3⟩ := hc a _ h1
    refine ⟨g1, by simp only; omega, ?_⟩
    simp only [List.sum_append]
    have hk : K * ((c a (m p).st).st.data.offset - p.data.offset) =
        K * ((c a (m p).st).st.data.offset - (m p).st.data.offset) + K * ((m p).st.data.offset - p.data.offset) := by
      rw [← Nat.mul_add]; congr 1; omega
    omega

theorem pure (a : α) : Grows I K B (Pure.pure a : P β α) := (Eats.pure a).grows
theorem fault (e : Fault) : Grows I K B (P.fault e : P β α) := (Eats.fault (n := 0) e).grows
theorem fail (e : ParseError) : Grows I K B (P.fail e : P β α) := fault _
theorem ofExcept (x : Except Fault α) : Grows I K B (P.ofExcept x : P β α) := fun _ hp => ⟨hp, Nat.le_refl _, Nat.zero_le _⟩
theorem ite {c : Prop} [Decidable c] {a b : P β α} (h1 : c → Grows I K B a) (h2 : ¬ c → Grows I K B b) :
    Grows I K B (if c then a else b) := by
  by_cases h : c
  · rw [if_pos h]; exact h1 h
  · rw [if_neg h]; exact h2 h

variable [ParseBuf β] (r : Room B I)
include r

theorem hintBind {c : Option Nat → P β α} {A : Nat} (hc : ∀ h, h ≤ B → Grows I K A (c (some h))) : Grows I K A (P.hint >>= c) := by
  intro p hp
  obtain ⟨h, hB, hh⟩ := r.hint p hp
  have hr : P.hint p = ⟨.ok (some h), p, []⟩ := by rw [← hh]; rfl
  rw [P.bind_nil hr]
  exact hc h hB p hp

theorem capacityBind {size A : Nat} (hs : 0 < size) {c : Nat → P β α} (hc : ∀ h, h ≤ B → Grows I K A (c (h / size))) :
    Grows I K A (P.safeCapacityBound size >>= c) := by
  intro p hp
  obtain ⟨h, hB, hh⟩ := r.hint p hp
  have hr : P.safeCapacityBound size p = ⟨.ok (h / size), p, []⟩ := by
    have h0 : ¬ size = 0 := by omega
    show (if size = 0 then (Pure.pure (usizeLimit - 1) : P β Nat) else
      (P.hint >>= fun h => Pure.pure (h.getD 16384 / size))) p = _
    rw [if_neg h0]
    have hr : P.hint p = ⟨.ok (some h), p, []⟩ := by rw [← hh]; rfl
    rw [P.bind_nil hr]
    rfl
  rw [P.bind_nil hr]
  exact hc h hB p hp

/-- Appending chunks to a vector of capacity `cap`. -/
theorem bytesSlowLoop : ∀ (fuel len : Nat) (bs : List Byte) (cap : Nat) (p : Parser β), I p →
    let o := (Heap.bytesSlowLoop fuel len bs cap : P β (List Byte)) p
    I o.st ∧ p.data.offset ≤ o.st.data.offset ∧
      o.log.sum + 2 * cap ≤ 2 * max cap (8 * (bs.length + (o.st.data.offset - p.data.offset) + slack B o.res)) ∧
      ∀ a, o.res = .ok a → p.data.offset + len ≤ o.st.data.offset
  | 0, len, bs, cap, p, hp => by
    refine ⟨hp, Nat.le_refl _, ?_, nofun⟩
    show 0 + 2 * cap ≤ _
    omega
  | fuel + 1, len, bs, cap, p, hp => by
    by_cases h0 : len = 0
    · have hr : (Heap.bytesSlowLoop (fuel + 1) len bs cap : P β (List Byte)) p = ⟨.ok bs, p, []⟩ := by
        unfold Heap.bytesSlowLoop
        rw [if_pos h0]; rfl
      rw [hr]
      refine ⟨hp, Nat.le_refl _, ?_, fun _ _ => by simp only; omega⟩
      simp only [List.sum_nil]
      omega
    have hr : (Heap.bytesSlowLoop (fuel + 1) len bs cap : P β (List Byte)) p = (P.chunk >>= fun c =>
        Heap.reserve 1 cap (bs.length + (c.truncate len).data.length) >>= fun cap =>
        P.advance (c.truncate len).data.length >>= fun _ =>
          Heap.bytesSlowLoop fuel (len - (c.truncate len).data.length) (bs ++ (c.truncate len).data) cap) p := by
      conv => lhs; unfold Heap.bytesSlowLoop
      rw [if_neg h0]
    rw [hr]
    have hI := r.chunk p hp
    rcases hc : (P.chunk p).res with e | c
    · rw [P.bind_err (P.run_eq _ hc)]
      refine ⟨hI, Nat.le_refl _, ?_, nofun⟩
      show 0 + 2 * cap ≤ _
      omega
    have ho : (P.chunk p).st.data.offset = p.data.offset := rfl
    have hB := r.chunkLen p c hp hc
    rw [P.bind_nil (P.run_eq _ hc)]
    generalize (P.chunk p).st = q at ho hI
    have hl := c.truncate_le len
    have hl' : (c.truncate len).data.length ≤ c.data.length := by
      unfold Chunk.truncate
      split
      · exact Nat.le_refl _
      · simp only [List.length_take]; omega
    obtain ⟨cap', l, h1, h2, h3⟩ := Heap.reserve_cost (β := β) 1 cap (bs.length + (c.truncate len).data.length) q
    rw [P.bind_ok h1]
    have hA := r.advance q (c.truncate len).data.length hI
    rcases P.advance_or (c.truncate len).data.length q with ha | ⟨q', ha, hq⟩
    · rw [P.bind_err ha]
      refine ⟨hI, by simp only; omega, ?_, nofun⟩
      simp only [slack, List.append_nil]
      omega
    · rw [ha] at hA
      rw [P.bind_nil ha]
      obtain ⟨i1, i2, i3, i4⟩ := bytesSlowLoop fuel (len - (c.truncate len).data.length) (bs ++ (c.truncate len).data) cap' q' hA
      simp only at i1 i2 i3 i4 ⊢
      refine ⟨i1, by omega, ?_, fun a ha => ?_⟩
      · simp only [List.sum_append]
        rw [List.length_append] at i3
        omega
      · have := i4 a ha
        omega

theorem bytesSlow (len : Nat) : Grows I 16 (16 * B) (Heap.bytesSlow len : P β (List Byte)) := by
  refine capacityBind r (by decide) fun h hB p hp => ?_
  have ha : P.alloc (min (h / 1) len) p = ⟨.ok (), p, [min (h / 1) len]⟩ := rfl
  rw [P.bind_ok ha]
  have hf : P.fuel p = ⟨.ok (ParseBuf.steps p.data + 1), p, []⟩ := rfl
  rw [P.bind_nil hf]
  obtain ⟨i1, i2, i3, i4⟩ := bytesSlowLoop r (ParseBuf.steps p.data + 1) len [] (min (h / 1) len) p hp
  simp only at i1 i2 i3 i4 ⊢
  refine ⟨i1, i2, ?_⟩
  rw [Nat.div_one] at i1 i2 i3 i4 ⊢
  simp only [List.sum_append, List.sum_cons, List.sum_nil, List.length_nil] at i3 ⊢
  generalize (Heap.bytesSlowLoop (ParseBuf.steps p.data + 1) len [] (min h len) : P β (List Byte)) p = o at *
  rcases hm : o.res with e | a
  · rw [hm] at i3
    simp only [slack] at i3 ⊢
    omega
  · have := i4 a hm
    rw [hm] at i3
    simp only [slack] at i3 ⊢
    omega

theorem bytes (len : Nat) : Grows I 16 (16 * B) (Heap.bytes len : P β (Cow Byte)) := by
  refine bind (Eats.bytesDirect r.toStable len).grows fun x => ?_
  split
  · exact pure _
  · refine hintBind r fun h hB => ite (fun hl => ?_) fun _ => bind (bytesSlow r len) fun _ => pure _
    have hl' : h ≥ len := of_decide_eq_true hl
    have ho : Owes I B 0 (P.alloc len >>= fun _ => P.toSlice len >>= fun bs => Pure.pure (Cow.owned bs) : P β (Cow Byte)) := by
      refine Owes.alloc (Owes.eat (Eats.toSlice r.toStable len) (by omega) fun _ => ?_)
      rw [show 0 + len - len = 0 by omega]
      exact Owes.pure _
    intro p hp
    obtain ⟨h1, h2, h3⟩ := ho p hp
    have h4 := slack_le (A := B) (B := 16 * B) (by omega)
      ((P.alloc len >>= fun _ => P.toSlice len >>= fun bs => Pure.pure (Cow.owned bs) : P β (Cow Byte)) p).res
    exact ⟨h1, h2, by omega⟩

/-- What `parse_rest` does after the first chunk, `bytes` being a vector of capacity `cap`, or borrowed. -/
theorem restLoop : ∀ (fuel : Nat) (bs : Cow Byte) (cap : Nat) (p : Parser β), I p →
    (∀ d, bs = .borrowed d → cap = d.length) →
    let o := (Heap.restLoop fuel bs cap : P β (Cow Byte)) p
    I o.st ∧ p.data.offset ≤ o.st.data.offset ∧
      o.log.sum + cap ≤ 2 * max cap (8 * (bs.data.length + (o.st.data.offset - p.data.offset) + slack B o.res)) ∧
      ((∃ d, bs = .owned d) →
        o.log.sum + 2 * cap ≤ 2 * max cap (8 * (bs.data.length + (o.st.data.offset - p.data.offset) + slack B o.res)))
  | 0, bs, cap, p, hp, hb => by
    have hr : (Heap.restLoop 0 bs cap : P β (Cow Byte)) p = ⟨.error .diverge, p, []⟩ := rfl
    rw [hr]
    simp only [List.sum_nil]
    exact ⟨hp, Nat.le_refl _, by omega, fun _ => by omega⟩
  | fuel + 1, bs, cap, p, hp, hb => by
    obtain ⟨hI, hlog, _⟩ := Eats.chunkResult r.toStable p hp
    have ho : (P.chunkResult p).st.data.offset = p.data.offset := by
      unfold P.chunkResult; split <;> rfl
    rcases hc : (P.chunkResult p).res with e | x
    · have hr : (Heap.restLoop (fuel + 1) bs cap : P β (Cow Byte)) p = _ := P.bind_err (P.run_eq _ hc)
      rw [hr, hlog]
      simp only [List.sum_nil]
      exact ⟨hI, by omega, by omega, fun _ => by omega⟩
    have he := P.run_eq _ hc
    rw [hlog] at he
    have hr : (Heap.restLoop (fuel + 1) bs cap : P β (Cow Byte)) p = _ := P.bind_nil he
    rw [hr]
    have hB : ∀ c, x = .ok c → c.data.length ≤ B := by
      intro c hx
      subst hx
      refine r.chunkLen p c hp ?_
      unfold P.chunkResult at hc
      show (ParseBuf.chunk p.data).1 = _
      split at hc
      · rename_i c' h'
        cases hc
        exact h'
      · cases hc
      · cases hc
    generalize (P.chunkResult p).st = q at hI ho
    cases x with
    | error e =>
      by_cases hk : e.kind = .eof
      · have : ((if e.kind = .eof then Pure.pure bs else P.fail e) : P β (Cow Byte)) q = ⟨.ok bs, q, []⟩ := by rw [if_pos hk]; rfl
        simp only
        rw [this]
        simp only [List.sum_nil]
        exact ⟨hI, by omega, by omega, fun _ => by omega⟩
      · have : ((if e.kind = .eof then Pure.pure bs else P.fail e) : P β (Cow Byte)) q = ⟨.error (.err e), q, []⟩ := by rw [if_neg hk]; rfl
        simp only
        rw [this]
        simp only [List.sum_nil]
        exact ⟨hI, by omega, by omega, fun _ => by omega⟩
    | ok c =>
      have hB := hB c rfl
      have hm : ∃ l0, (Heap.toMut bs cap : P β Nat) q = ⟨.ok cap, q, l0⟩ ∧ l0.sum ≤ cap ∧ ((∃ d, bs = .owned d) → l0.sum = 0) := by
        cases bs with
        | borrowed d =>
          rw [hb d rfl]
          exact ⟨[d.length], rfl, by simp, fun ⟨_, h⟩ => by cases h⟩
        | owned d => exact ⟨[], rfl, Nat.zero_le _, fun _ => rfl⟩
      obtain ⟨l0, h0, h01, h02⟩ := hm
      simp only
      rw [P.bind_ok h0]
      obtain ⟨cap', l, h1, h2, h3⟩ := Heap.reserve_cost (β := β) 1 cap (bs.data.length + c.data.length) q
      rw [P.bind_ok h1]
      have hA := r.advance q c.data.length hI
      rcases P.advance_or c.data.length q with ha | ⟨q', ha, hq⟩
      · rw [P.bind_err ha]
        simp only [slack, List.append_nil, List.sum_append]
        exact ⟨hI, by omega, by omega, fun h => by have := h02 h; omega⟩
      · rw [ha] at hA
        rw [P.bind_nil ha]
        obtain ⟨i1, i2, _, i3⟩ := restLoop fuel (.owned (bs.data ++ c.data)) cap' q' hA (fun _ h => by cases h)
        have i3 := i3 ⟨_, rfl⟩
        simp only at i1 i2 i3 ⊢
        have hd : (Cow.owned (bs.data ++ c.data)).data.length = bs.data.length + c.data.length := List.length_append
        rw [hd] at i3
        simp only [List.sum_append]
        exact ⟨i1, by omega, by omega, fun h => by have := h02 h; omega⟩

theorem rest : Grows I 16 (16 * B) (Heap.rest : P β (Cow Byte)) := by
  intro p hp
  have hI := r.chunk p hp
  rcases hc : (P.chunk p).res with e | c
  · have hr : (Heap.rest : P β (Cow Byte)) p = _ := P.bind_err (P.run_eq _ hc)
    rw [hr]
    exact ⟨hI, Nat.le_refl _, Nat.zero_le _⟩
  have hB := r.chunkLen p c hp hc
  have ho : (P.chunk p).st.data.offset = p.data.offset := rfl
  have hr : (Heap.rest : P β (Cow Byte)) p = _ := P.bind_nil (P.run_eq _ hc)
  rw [hr]
  generalize (P.chunk p).st = q at ho hI
  obtain ⟨l, h1, h2⟩ := P.toCow_sum (β := β) c q
  rw [P.bind_ok h1]
  have hcd : c.toCow.data = c.data := by unfold Chunk.toCow; split <;> rfl
  have hA := r.advance q c.toCow.data.length hI
  rw [hcd] at hA ⊢
  rcases P.advance_or c.data.length q with ha | ⟨q', ha, hq⟩
  · rw [P.bind_err ha]
    simp only [slack, List.append_nil]
    exact ⟨hI, by omega, by omega⟩
  · rw [ha] at hA
    have hf : P.fuel q' = ⟨.ok (ParseBuf.steps q'.data + 1), q', []⟩ := rfl
    rw [P.bind_nil ha, P.bind_nil hf]
    obtain ⟨i1, i2, i3, _⟩ := restLoop r (ParseBuf.steps q'.data + 1) c.toCow c.data.length q' hA
      (fun d h => by rw [← hcd, h]; rfl)
    simp only at i1 i2 i3 ⊢
    rw [hcd] at i3
    generalize (Heap.restLoop (ParseBuf.steps q'.data + 1) c.toCow c.data.length : P β (Cow Byte)) q' = o at *
    refine ⟨i1, by omega, ?_⟩
    simp only [List.sum_append]
    rcases hm : o.res with e | a
    · rw [hm] at i3
      simp only [slack] at i3 ⊢
      omega
    · rw [hm] at i3
      simp only [slack] at i3 ⊢
      omega

omit r [ParseBuf β] in
/-- Pushing elements of `size` bytes into a vector of capacity `cap`. -/
theorem repeatedLoop {size : Nat} {item : P β T} (h : Eats I size item) : ∀ (n count cap : Nat) (p : Parser β), I p →
    let o := (Heap.repeatedLoop size item n count cap : P β (List T)) p
    I o.st ∧ p.data.offset ≤ o.st.data.offset ∧
      o.log.sum + 2 * (cap * size) ≤ 2 * max (cap * size) (8 * (count * size + (o.st.data.offset - p.data.offset))) ∧
      ∀ a, o.res = .ok a → p.data.offset + n * size ≤ o.st.data.offset
  | 0, count, cap, p, hp => by
    have hr : (Heap.repeatedLoop size item 0 count cap : P β (List T)) p = ⟨.ok [], p, []⟩ := rfl
    rw [hr]
    simp only [List.sum_nil]
    exact ⟨hp, Nat.le_refl _, by omega, fun _ _ => by omega⟩
  | n + 1, count, cap, p, hp => by
    obtain ⟨h1, h2, h3, h4⟩ := h p hp
    rcases hm : (item p).res with e | a
    · have hr : (Heap.repeatedLoop size item (n + 1) count cap : P β (List T)) p = _ := P.bind_err (P.run_eq _ hm)
      rw [hr, h2]
      simp only [List.sum_nil]
      exact ⟨h1, h3, by omega, nofun⟩
    have h5 := h4 a hm
    have he := P.run_eq _ hm
    rw [h2] at he
    have hr : (Heap.repeatedLoop size item (n + 1) count cap : P β (List T)) p = _ := P.bind_nil he
    rw [hr]
    generalize (item p).st = q at h1 h3 h5
    obtain ⟨cap', l, r1, r2, r3⟩ := Heap.reserve_cost (β := β) size cap (count + 1) q
    rw [P.bind_ok r1]
    obtain ⟨i1, i2, i3, i4⟩ := repeatedLoop h n (count + 1) cap' q h1
    simp only at i1 i2 i3 i4 ⊢
    have hc : (count + 1) * size = count * size + size := Nat.succ_mul _ _
    have hn : (n + 1) * size = n * size + size := Nat.succ_mul _ _
    have r4 : cap' * size = cap * size ∨ cap' * size ≤ 8 * (count * size + size) := by
      rcases r3 with r3 | r3
      · left; rw [r3]
      · right
        have := Nat.mul_le_mul_right size r3
        rw [Nat.mul_assoc, hc] at this
        exact this
    rw [hc] at i3
    rcases ho : ((Heap.repeatedLoop size item n (count + 1) cap' : P β (List T)) q).res with e | as
    · rw [P.bind_err (P.run_eq _ ho)]
      simp only [List.sum_append]
      exact ⟨i1, by omega, by omega, nofun⟩
    · have i5 := i4 as ho
      rw [P.bind_ok (P.run_eq _ ho)]
      have hp : (Pure.pure (a :: as) : P β (List T)) ((Heap.repeatedLoop size item n (count + 1) cap' : P β (List T)) q).st =
        ⟨.ok (a :: as), ((Heap.repeatedLoop size item n (count + 1) cap' : P β (List T)) q).st, []⟩ := rfl
      rw [hp]
      simp only [List.sum_append, List.sum_nil]
      exact ⟨i1, by omega, by omega, fun _ _ => by omega⟩

theorem slice (e : Elem T) (he : 0 < e.size) {item : P β T} (h : Eats I e.size item) (len : Nat) :
    Grows I 16 (16 * B) (Heap.slice e item len : P β (Cow T)) := by
  refine bind (Eats.sliceDirect r.toStable e len).grows fun x => ?_
  split
  · exact pure _
  · refine bind (capacityBind r he fun k hB p hp => ?_) fun _ => pure _
    have ha : P.alloc (min len (k / e.size) * e.size) p = ⟨.ok (), p, [min len (k / e.size) * e.size]⟩ := rfl
    rw [P.bind_ok ha]
    have h1 : k / e.size * e.size ≤ k := Nat.div_mul_le_self _ _
    have h2 : min len (k / e.size) * e.size ≤ k / e.size * e.size := Nat.mul_le_mul_right _ (Nat.min_le_right _ _)
    have h3 : min len (k / e.size) * e.size ≤ len * e.size := Nat.mul_le_mul_right _ (Nat.min_le_left _ _)
    obtain ⟨i1, i2, i3, i4⟩ := repeatedLoop h len 0 (min len (k / e.size)) p hp
    simp only at i1 i2 i3 i4 ⊢
    rw [Nat.zero_mul] at i3
    generalize (Heap.repeatedLoop e.size item len 0 (min len (k / e.size)) : P β (List T)) p = o at *
    generalize min len (k / e.size) * e.size = x at *
    refine ⟨i1, i2, ?_⟩
    simp only [List.sum_append, List.sum_cons, List.sum_nil]
    rcases hm : o.res with e | a
    · simp only [slack]
      omega
    · have := i4 a hm
      simp only [slack]
      omega

theorem padded (n : Nat) {m : P β α} {A : Nat} (h : Grows I K A m) : Grows I K A (P.padded n m) :=
  ite (fun _ => fault _) fun _ => bind Eats.offset.grows fun _ => bind h fun _ =>
    bind Eats.offset.grows fun _ => ite (fun _ => pure _) fun _ => bind (Eats.bytesIgnored r.toStable _).grows fun _ => pure _

end Grows

/-! ## What is returned was consumed -/

/-- A value of size `f a` is returned only after consuming as much, less `k`. -/
def Held (k : Nat) (f : α → Nat) (m : P β α) : Prop :=
  ∀ p a, (m p).res = .ok a → p.data.offset + f a ≤ (m p).st.data.offset + k

namespace Held
variable {k n : Nat} {f : α' → Nat}

theorem eat {m : P β α} {c : α → P β α'} (h : Eats (fun _ => True) n m) (hc : ∀ a, Held (k + n) f (c a)) : Held k f (m >>= c) := by
  intro p b hb
  rcases hm : (m p).res with e | a
  · rw [P.bind_err (P.run_eq _ hm)] at hb
    cases hb
  · rw [P.bind_ok (P.run_eq _ hm)] at hb ⊢
    have h1 := hc a _ b hb
    have h2 := (h p trivial).2.2.2 a hm
    simp only
    omega

theorem map {m : P β α} {g : α → α'} {f' : α → Nat} (h : Held k f' m) (hg : ∀ a, f (g a) = f' a) :
    Held k f (m >>= fun a => Pure.pure (g a)) := by
  intro p b hb
  rcases hm : (m p).res with e | a
  · rw [P.bind_err (P.run_eq _ hm)] at hb
    cases hb
  · rw [P.bind_ok (P.run_eq _ hm)] at hb ⊢
    have hb' : (Except.ok (g a) : Except Fault α') = .ok b := hb
    cases hb'
    have := h p a hm
    rw [hg]
    exact this

theorem pure {a : α'} (h : f a ≤ k) : Held k f (Pure.pure a : P β α') := fun p b hb => by
  have hb' : (Except.ok a : Except Fault α') = .ok b := hb
  cases hb'
  show p.data.offset + f a ≤ p.data.offset + k
  omega
theorem fault (e : Fault) : Held k f (P.fault e : P β α') := fun _ _ hb => by cases hb
theorem ite {c : Prop} [Decidable c] {a b : P β α'} (h1 : c → Held k f a) (h2 : ¬ c → Held k f b) :
    Held k f (if c then a else b) := by
  by_cases h : c
  · rw [if_pos h]; exact h1 h
  · rw [if_neg h]; exact h2 h
theorem mono {j : Nat} {m : P β α'} (h : Held j f m) (hj : j ≤ k) : Held k f m := fun p a ha => by
  have := h p a ha
  omega

variable [ParseBuf β]

theorem bytesSlowLoop : ∀ (fuel len : Nat) (w : List Byte), Held w.length List.length (P.bytesSlowLoop fuel len w : P β (List Byte))
  | 0, _, _ => fault _
  | fuel + 1, len, w => ite (fun _ => pure (Nat.le_refl _)) fun _ => eat (Eats.chunk Costs.stable) fun c =>
    eat (Eats.advance Costs.stable (c.truncate len).data.length) fun _ => by
      have h := bytesSlowLoop fuel (len - (c.truncate len).data.length) (w ++ (c.truncate len).data)
      rw [List.length_append] at h
      exact h

theorem toSliceLoop : ∀ (fuel len : Nat) (w : List Byte), Held w.length List.length (P.toSliceLoop fuel len w : P β (List Byte))
  | 0, _, _ => fault _
  | fuel + 1, len, w => ite (fun _ => pure (Nat.le_refl _)) fun _ => eat (Eats.chunk Costs.stable) fun c =>
    eat (Eats.advance Costs.stable (min c.data.length len)) fun _ => by
      refine mono (toSliceLoop fuel (len - min c.data.length len) (w ++ c.data.take (min c.data.length len))) ?_
      rw [List.length_append, List.length_take]
      omega

theorem bytes (len : Nat) : Held 0 (fun c => c.data.length) (P.bytes len : P β (Cow Byte)) := by
  intro p a ha
  rcases hm : ((P.bytesDirect len : P β (Option (Nat × List Byte))) p).res with e | x
  · have hr : (P.bytes len : P β (Cow Byte)) p = _ := P.bind_err (P.run_eq _ hm)
    rw [hr] at ha
    cases ha
  have hr : (P.bytes len : P β (Cow Byte)) p = _ := P.bind_ok (P.run_eq _ hm)
  rw [hr] at ha ⊢
  cases x with
  | some y =>
    obtain ⟨addr, bs⟩ := y
    have ha' : (Except.ok (.borrowed bs) : Except Fault (Cow Byte)) = .ok a := ha
    cases ha'
    have hd : Held 0 (fun x : Option (Nat × List Byte) => match x with | some y => y.2.length | none => 0)
        (P.bytesDirect len : P β (Option (Nat × List Byte))) := by
      refine eat (Eats.chunk Costs.stable) fun c => ?_
      split
      · exact pure (Nat.le_refl _)
      · refine ite (fun _ => pure (Nat.le_refl _)) fun _ => eat (Eats.advance Costs.stable len) fun _ => pure ?_
        simp only [List.length_take]
        omega
    exact hd p _ hm
  | none =>
    have h0 := (Eats.bytesDirect (β := β) Costs.stable len p trivial).2.2.1
    have hd : Held 0 (fun c => c.data.length) (P.hint >>= fun h => if P.hintAtLeast h len then
        (P.alloc len >>= fun _ => P.toSlice len >>= fun bs => Pure.pure (.owned bs))
        else (P.bytesSlow len >>= fun bs => Pure.pure (.owned bs)) : P β (Cow Byte)) := by
      have hh : ∀ h, Held 0 (fun c => c.data.length) (if P.hintAtLeast h len then
          (P.alloc len >>= fun _ => P.toSlice len >>= fun bs => Pure.pure (.owned bs))
          else (P.bytesSlow len >>= fun bs => Pure.pure (.owned bs)) : P β (Cow Byte)) := by
        intro h
        refine ite (fun _ => ?_) fun _ => map (f' := List.length) ?_ fun _ => rfl
        · have hs : Held 0 List.length (P.toSlice len : P β (List Byte)) :=
            eat Eats.fuel fun n => mono (toSliceLoop n len []) (Nat.le_refl _)
          intro p a ha
          exact map (f := fun c : Cow Byte => c.data.length) (g := Cow.owned) hs (fun _ => rfl) p a ha
        · intro p a ha
          have hc : ∃ n, (P.safeCapacityBound 1 : P β Nat) p = ⟨.ok n, p, []⟩ := ⟨_, rfl⟩
          obtain ⟨n, hc⟩ := hc
          have hb : (P.bytesSlow len : P β (List Byte)) p = _ := P.bind_nil hc
          have ha2 : P.alloc (min n len) p = ⟨.ok (), p, [min n len]⟩ := rfl
          rw [P.bind_ok ha2] at hb
          rw [hb] at ha ⊢
          have hl : Held 0 List.length (P.fuel >>= fun n => P.bytesSlowLoop n len [] : P β (List Byte)) :=
            eat Eats.fuel fun n => mono (bytesSlowLoop n len []) (Nat.le_refl _)
          exact hl p a ha
      intro p a ha
      exact hh _ p a ha
    have := hd _ a ha
    simp only at this ⊢
    omega

end Held

namespace Grows
variable [ParseBuf β] {I : Parser β → Prop} {B : Nat} (r : Room B I)
include r

theorem textPoke : Grows I 17 (16 * B) (parseTextPoke : Heap β (TextPoke Cow)) := by
  refine bind (Eats.u64 r.toStable).grows fun _ => bind (Eats.u16 r.toStable).grows fun a => bind (Eats.u16 r.toStable).grows fun b => ?_
  suffices h : ∀ len n (k : Cow Byte × Cow Byte → TextPoke Cow), Grows I 17 (16 * B)
      (Heap.bytes len >>= fun d => Heap.cowSplitAt d n >>= fun x => Pure.pure (k x) : P β (TextPoke Cow)) from
    h (roundUpMod (a.toNat + b.toNat) 4 8) a.toNat fun x => _
  intro len n k p hp
  obtain ⟨h1, h2, h3⟩ := bytes r len p hp
  obtain ⟨e1, e2, _⟩ := Erases.bytes len p
  rcases hm : ((Heap.bytes len : P β (Cow Byte)) p).res with e | c
  · rw [P.bind_err (P.run_eq _ hm)]
    rw [hm] at h3
    simp only [slack] at h3 ⊢
    exact ⟨h1, h2, by omega⟩
  · rw [hm] at e1 h3
    have hl := Held.bytes len p c e1.symm
    rw [← e2] at hl
    rw [P.bind_ok (P.run_eq _ hm)]
    generalize ((Heap.bytes len : P β (Cow Byte)) p) = o at *
    have hs : (∃ x l, (Heap.cowSplitAt c n : P β (Cow Byte × Cow Byte)) o.st = ⟨.ok x, o.st, l⟩ ∧ l.sum ≤ c.data.length) ∨
        (Heap.cowSplitAt c n : P β (Cow Byte × Cow Byte)) o.st = ⟨.error .panic, o.st, []⟩ := by
      unfold Heap.cowSplitAt
      rcases hx : c.splitAt n with _ | ⟨a, b⟩
      · exact .inr rfl
      · left
        have hb : b.data.length ≤ c.data.length := by
          cases c with
          | borrowed d =>
            unfold Cow.splitAt at hx
            simp only at hx
            split at hx <;> cases hx
            show (d.drop n).length ≤ d.length
            rw [List.length_drop]; omega
          | owned d =>
            unfold Cow.splitAt at hx
            simp only at hx
            split at hx
            · cases hx; exact Nat.zero_le _
            · split at hx
              · cases hx; exact Nat.le_refl _
              · split at hx <;> cases hx
                show (d.drop n).length ≤ d.length
                rw [List.length_drop]; omega
        cases a with
        | borrowed a => exact ⟨_, _, rfl, Nat.zero_le _⟩
        | owned a =>
          cases b with
          | borrowed b => exact ⟨_, _, rfl, Nat.zero_le _⟩
          | owned b =>
            refine ⟨_, [b.length], rfl, ?_⟩
            rw [List.sum_cons, List.sum_nil]
            exact hb
    simp only [slack] at h3 hl
    rcases hs with ⟨x, l, hx, hs⟩ | hx
    · rw [P.bind_ok hx]
      refine ⟨h1, h2, ?_⟩
      show (o.log ++ (l ++ [])).sum ≤ 17 * (o.st.data.offset - p.data.offset) + 0
      simp only [List.sum_append, List.sum_nil]
      omega
    · rw [P.bind_err hx]
      refine ⟨h1, h2, ?_⟩
      simp only [List.append_nil, slack]
      omega

/-- Every record body. -/
theorem kin : Kin (β := β) (fun m _ => Grows I 17 (16 * B) m) where
  pure _ := pure _
  bind := fun h hk => bind h hk
  fail _ := fail _
  config := Eats.config.grows
  array n := (Eats.array r.toStable n).grows
  bytes n := mono (bytes r n) (by decide) (Nat.le_refl _)
  rest := mono (rest r) (by decide) (Nat.le_refl _)
  padded h := padded r 8 h
  words n := mono (slice r U64.elem (by decide) (Eats.u64 r.toStable) n) (by decide) (Nat.le_refl _)
  entries n := mono (slice r NamespaceEntry.elem (by decide) (Eats.namespaceEntry r.toStable) n) (by decide) (Nat.le_refl _)
  branches n := mono (slice r BranchEntry.elem (by decide) (Eats.branchEntry r.toStable) n) (by decide) (Nat.le_refl _)
  textPoke := textPoke r

theorem dispatch {O : Type} (v : Visitor Cow O) (md : Metadata) : Grows I 17 (16 * B) (Heap.dispatch v md : P β O) :=
  bind ((kin r).body md.ty) fun _ => ofExcept _

end Grows
/-! ## Splitting off a region -/

/-- Copying chunks out of any buffer: `n` bytes, each perhaps a chunk of its own. -/
theorem Heap.cursorLoop_cost [ParseBuf β] : ∀ (fuel len : Nat) (cs : List Chunk) (cap : Nat) (p : Parser β), 2 ≤ cap → cs.length ≤ cap →
    let o := (Heap.cursorLoop fuel len cs cap : P β (List Chunk)) p
    p.data.offset ≤ o.st.data.offset ∧ (∀ a, o.res = .ok a → p.data.offset + len ≤ o.st.data.offset) ∧
    ∃ n, n ≤ len ∧ (o.res ≠ .error .panic → p.data.offset + n ≤ o.st.data.offset) ∧
      o.log.sum + 48 * cap ≤ 48 * max cap (2 * (cs.length + n)) + n
  | 0, len, cs, cap, p, h2, hc => by
    have hr : (Heap.cursorLoop 0 len cs cap : P β (List Chunk)) p = ⟨.error .diverge, p, []⟩ := rfl
    rw [hr]
    refine ⟨Nat.le_refl _, nofun, 0, Nat.zero_le _, fun _ => Nat.le_refl _, ?_⟩
    simp only [List.sum_nil]
    omega
  | fuel + 1, len, cs, cap, p, h2, hc => by
    by_cases h0 : len = 0
    · have hr : (Heap.cursorLoop (fuel + 1) len cs cap : P β (List Chunk)) p = ⟨.ok cs, p, []⟩ := by
        unfold Heap.cursorLoop
        rw [if_pos h0]; rfl
      rw [hr]
      refine ⟨Nat.le_refl _, fun _ _ => by simp only; omega, 0, Nat.zero_le _, fun _ => Nat.le_refl _, ?_⟩
      simp only [List.sum_nil]
      omega
    have hr : (Heap.cursorLoop (fuel + 1) len cs cap : P β (List Chunk)) p = (P.chunk >>= fun c =>
        Heap.pushChunk (c.truncate len) cs cap >>= fun x => P.advance (c.truncate len).data.length >>= fun _ =>
          Heap.cursorLoop fuel (len - (c.truncate len).data.length) x.1 x.2) p := by
      conv => lhs; unfold Heap.cursorLoop
      rw [if_neg h0]
    rw [hr]
    rcases hm : (P.chunk p).res with e | c
    · rw [P.bind_err (P.run_eq _ hm)]
      refine ⟨Nat.le_refl _, nofun, 0, Nat.zero_le _, fun _ => Nat.le_refl _, ?_⟩
      show 0 + 48 * cap ≤ _
      omega
    have ho : (P.chunk p).st.data.offset = p.data.offset := rfl
    rw [P.bind_nil (P.run_eq _ hm)]
    generalize (P.chunk p).st = q at ho
    have hl := c.truncate_le len
    obtain ⟨cs', cap', l, l', r1, _, r3, r4, r5⟩ := Heap.pushChunk_run (β := β) (c.truncate len) cs cap q
    obtain ⟨r5, r6, r7, r8⟩ := r5 h2 hc
    rw [P.bind_ok r1]
    rcases P.advance_or (c.truncate len).data.length q with ha | ⟨q', ha, hq⟩
    · rw [P.bind_err ha]
      refine ⟨by simp only; omega, nofun, (c.truncate len).data.length, hl, fun h => (h rfl).elim, ?_⟩
      simp only [List.append_nil, List.sum_append]
      omega
    · rw [P.bind_nil ha]
      obtain ⟨i1, i2, n, i3, i4, i5⟩ := Heap.cursorLoop_cost fuel (len - (c.truncate len).data.length) cs' cap' q' r5 r6
      simp only at i1 i2 i4 i5 ⊢
      refine ⟨by omega, fun a ha => by have := i2 a ha; omega, n + (c.truncate len).data.length, by omega,
        fun h => by have := i4 h; omega, ?_⟩
      simp only [List.sum_append]
      omega

/-- Splitting off `len` bytes: the first two slots, and at most 97 bytes for each byte that was there. -/
theorem Heap.splitAt_cost [ParseBuf β] (len : Nat) (p : Parser β) :
    let o := (Heap.splitAt len : P β (Parser Cursor)) p
    p.data.offset ≤ o.st.data.offset ∧ (∀ a, o.res = .ok a → p.data.offset + len ≤ o.st.data.offset) ∧
    ∃ n, n ≤ len ∧ (o.res ≠ .error .panic → p.data.offset + n ≤ o.st.data.offset) ∧ o.log.sum ≤ 48 + 97 * n := by
  obtain ⟨i1, i2, n, i3, i4, i5⟩ := Heap.cursorLoop_cost (ParseBuf.steps p.data + 1) len [] 2 p (Nat.le_refl _) (Nat.zero_le _)
  have hf : P.fuel p = ⟨.ok (ParseBuf.steps p.data + 1), p, []⟩ := rfl
  have ha : P.alloc (2 * slotSize) p = ⟨.ok (), p, [48]⟩ := rfl
  simp only [List.length_nil] at i1 i2 i4 i5
  rcases hm : ((Heap.cursorLoop (ParseBuf.steps p.data + 1) len [] 2 : P β (List Chunk)) p).res with e | cs
  · have h1 : (Heap.newCursor len : P β Cursor) p = _ := P.bind_ok ha
    rw [P.bind_nil hf, P.bind_err (P.run_eq _ hm)] at h1
    have h2 : (Heap.splitAt len : P β (Parser Cursor)) p = _ := P.bind_err h1
    rw [h2]
    rw [hm] at i4
    refine ⟨i1, nofun, n, i3, fun h => i4 fun h' => h (by cases h'; rfl), ?_⟩
    simp only [List.sum_append, List.sum_cons, List.sum_nil]
    omega
  · have h1 : (Heap.newCursor len : P β Cursor) p = _ := P.bind_ok ha
    rw [P.bind_nil hf, P.bind_ok (P.run_eq _ hm)] at h1
    have h2 : (Heap.splitAt len : P β (Parser Cursor)) p = _ := P.bind_ok h1
    rw [h2]
    rw [hm] at i4
    refine ⟨i1, fun _ _ => i2 cs hm, n, i3, fun _ => i4 nofun, ?_⟩
    have hl : ∀ (c : Cursor) (st : Parser β), ((P.config >>= fun cfg => Pure.pure (Parser.new c cfg) : P β (Parser Cursor)) st).log = [] :=
      fun _ _ => rfl
    have hl2 : ∀ (c : Cursor) (st : Parser β), ((Pure.pure c : P β Cursor) st).log = [] := fun _ _ => rfl
    simp only [List.sum_append, List.sum_cons, List.sum_nil, hl, hl2]
    omega

/-! ## Records -/

theorem Costs.heapSplitAt [ParseBuf β] (len : Nat) : Costs (48 + 97 * len) (fun _ => True) (Heap.splitAt len : P β (Parser Cursor)) := by
  intro p
  obtain ⟨_, _, n, h1, _, h2⟩ := Heap.splitAt_cost len p
  have h2 : ((Heap.splitAt len : P β (Parser Cursor)) p).log.sum ≤ 48 + 97 * n := h2
  exact ⟨by omega, fun _ _ => trivial⟩

/-- The metadata of a record: both regions. -/
theorem Costs.heapMetadata [ParseBuf β] (h : Header) : Costs (96 + 194 * (h.size.toNat - 8)) (fun _ => True)
    (Heap.metadataWithHeader h : P β (Parser Cursor × Metadata)) := by
  refine Costs.ite (fun _ => Costs.mono (Costs.fail _) (Nat.zero_le _)) fun _ => ?_
  refine Costs.mono (Costs.bind (Costs.heapSplitAt (h.size.toNat - 8)) (k := 48 + 97 * (h.size.toNat - 8)) fun q _ => ?_) (by omega)
  refine Costs.ite (fun _ => Costs.mono (Costs.pure trivial) (Nat.zero_le _)) fun _ => ?_
  refine Costs.ite (fun _ => Costs.mono (Costs.fail _) (Nat.zero_le _)) fun _ => ?_
  refine Costs.mono (Costs.bind (Costs.onChild q (Costs.heapSplitAt (h.size.toNat - 8 - SampleId.estimateLen q.config)))
    (k := 0 + 0) fun x _ => ?_) (by omega)
  exact Costs.bind (Costs.onChild (Q := fun _ => True) x.2 (Eats.sampleId Costs.stable).costs) fun _ _ => Costs.pure trivial

/-- The body of a record. -/
theorem Heap.recordImpl_cost {γ O : Type} [ParseBuf γ] {H : Nat} {J : Nat → γ → Prop} (e : Extent H J) (q : Parser γ)
    (hq : J H q.data.buf) (v : Visitor Cow O) (md : Metadata) (p : Parser β) :
    ((Heap.recordImpl q v md : P β O) p).log.sum ≤ 17 * H + slack (16 * H) ((Heap.recordImpl q v md : P β O) p).res := by
  obtain ⟨h1, h2, h3⟩ := Grows.dispatch e.tracking.room v md (Parser.new q.data (q.config.withMisc md.misc)) ⟨Nat.zero_le _, hq⟩
  have h4 := h1.1
  have h0 : (Parser.new q.data (q.config.withMisc md.misc)).data.offset = 0 := rfl
  rw [h0] at h3
  rcases hm : ((Heap.dispatch v md : P (Tracking γ) O) (Parser.new q.data (q.config.withMisc md.misc))).res with x | a
  · have hr : (Heap.recordImpl q v md : P β O) p = ⟨.error x, p,
        ((Heap.dispatch v md : P (Tracking γ) O) (Parser.new q.data (q.config.withMisc md.misc))).log⟩ := by
      refine P.bind_err ?_
      unfold P.onChild
      simp only [hm]
    rw [hr]
    rw [hm] at h3
    simp only [slack] at h3 ⊢
    omega
  · have hr : (Heap.recordImpl q v md : P β O) p = ⟨.ok a, p,
        ((Heap.dispatch v md : P (Tracking γ) O) (Parser.new q.data (q.config.withMisc md.misc))).log ++ []⟩ := by
      refine P.bind_ok (a := (a, ((Heap.dispatch v md : P (Tracking γ) O) (Parser.new q.data (q.config.withMisc md.misc))).st)) ?_
      unfold P.onChild
      simp only [hm]
    rw [hr]
    rw [hm] at h3
    simp only [slack, List.append_nil] at h3 ⊢
    omega

/-- A whole record, given its header. -/
theorem Heap.record_cost [ParseBuf β] {O : Type} (v : Visitor Cow O) (h : Header) (p : Parser β) :
    (Heap.recordWithHeader v h p).log.sum ≤
      96 + 211 * (h.size.toNat - 8) + slack (16 * (h.size.toNat - 8)) (Heap.recordWithHeader v h p).res := by
  have hn := (Costs.heapMetadata h p).1
  obtain ⟨e1, _, _⟩ := Erases.metadataWithHeader h p
  have hq := (Costs.metadataWithHeader h p).2
  rw [← e1] at hq
  rcases hm : ((Heap.metadataWithHeader h : P β (Parser Cursor × Metadata)) p).res with e | ⟨q, md⟩
  · have hr : Heap.recordWithHeader v h p = _ := P.bind_err (P.run_eq _ hm)
    rw [hr]
    simp only
    omega
  · obtain ⟨h1, h2, h3⟩ := hq _ hm
    simp only at h1 h2 h3
    have hr : Heap.recordWithHeader v h p = _ := P.bind_ok (P.run_eq _ hm)
    rw [hr]
    simp only [List.sum_append]
    have body : ∀ m : P β O, (∀ st, (m st).log.sum ≤ 17 * (h.size.toNat - 8) + slack (16 * (h.size.toNat - 8)) (m st).res) →
        ∀ st, ((Heap.metadataWithHeader h : P β (Parser Cursor × Metadata)) p).log.sum + (m st).log.sum ≤
          96 + 211 * (h.size.toNat - 8) + slack (16 * (h.size.toNat - 8)) (m st).res := by
      intro m hm st
      have := hm st
      omega
    refine body (match q.data.buf.asSlice with
      | some data => Heap.recordImpl (Parser.new data q.config) v md
      | none => Heap.recordImpl q v md) (fun st => ?_) _
    rcases hd : q.data.buf.asSlice with _ | d
    · exact Heap.recordImpl_cost (Extent.cursor (h.size.toNat - 8)) q ⟨by omega, by omega, h3⟩ v md st
    · refine Heap.recordImpl_cost (Extent.slice (h.size.toNat - 8)) _ ⟨?_, Nat.le_refl _⟩ v md st
      show d.data.length ≤ _
      unfold Cursor.asSlice at hd
      split at hd
      · rename_i a d' hc
        cases hd
        rw [hc] at h1
        exact h1
      · cases hd

end Perf
