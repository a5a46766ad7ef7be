import Verif.Spec.Work
import Verif.Proof.Memory
import Verif.Proof.Sim
/-!
# How many calls on the buffer a parser function makes

`Works I r s k m`: `m` makes at most `r` calls per byte it consumes, plus `k`; if it fails, plus `s` more.
-/
namespace Perf
variable {β : Type} {α α' T : Type}

/-- Additional calls of a failing run. -/
def Works.extra (s : Nat) : Except Fault α → Nat
  | .ok _ => 0
  | .error _ => s

/-- At most `r` calls per byte, `k` more, and `s` more in case of failure. -/
def Works (I : Parser (Counted β) → Prop) (r s k : Nat) (m : P (Counted β) α) : Prop :=
  ∀ p, I p → I (m p).st ∧ p.data.offset ≤ (m p).st.data.offset ∧
    (m p).st.calls + r * p.data.offset ≤ p.calls + r * (m p).st.data.offset + k + Works.extra s (m p).res

/-- `m` leaves the parser alone. -/
def Quiet (m : P β α) : Prop := ∀ p, (m p).st = p

/-- A buffer that shows something as long as it reports no error. -/
structure Busy [ParseBuf β] (I : Parser (Counted β) → Prop) : Prop extends Stable I where
  ne : ∀ p c, I p → (P.chunk p).res = .ok c → c.data ≠ []

namespace Quiet
theorem pure (a : α) : Quiet (Pure.pure a : P β α) := fun _ => rfl
theorem fault (e : Fault) : Quiet (P.fault e : P β α) := fun _ => rfl
theorem config : Quiet (P.config : P β ParseConfig) := fun _ => rfl
theorem offset : Quiet (P.offset : P β Nat) := fun _ => rfl
theorem alloc (n : Nat) : Quiet (P.alloc n : P β Unit) := fun _ => rfl
theorem hint [ParseBuf β] : Quiet (P.hint : P β (Option Nat)) := fun _ => rfl
theorem fuel [ParseBuf β] : Quiet (P.fuel : P β Nat) := fun _ => rfl
theorem ofExcept (x : Except Fault α) : Quiet (P.ofExcept x : P β α) := fun _ => rfl
theorem bind {m : P β α} {c : α → P β α'} (h : Quiet m) (hc : ∀ a, Quiet (c a)) : Quiet (m >>= c) := by
  intro p
  rcases hm : (m p).res with e | a
  · rw [P.bind_err (P.run_eq _ hm)]
    exact h p
  · rw [P.bind_ok (P.run_eq _ hm)]
    exact (hc a _).trans (h p)
theorem ite {c : Prop} [Decidable c] {a b : P β α} (h1 : Quiet a) (h2 : Quiet b) : Quiet (if c then a else b) := by
  split
  · exact h1
  · exact h2
theorem toCow (c : Chunk) : Quiet (P.toCow c : P β (Cow Byte)) := by
  unfold P.toCow
  split
  · exact bind (alloc _) fun _ => pure _
  · exact pure _
theorem pushChunk (c : Chunk) (cs : List Chunk) : Quiet (P.pushChunk c cs : P β (List Chunk)) :=
  ite (bind (toCow c) fun _ => pure _) (pure _)
theorem safeCapacityBound [ParseBuf β] (n : Nat) : Quiet (P.safeCapacityBound n : P β Nat) :=
  ite (pure _) (bind hint fun _ => pure _)
theorem onChild {δ : Type} (child : Parser δ) (m : P δ α) : Quiet (P.onChild child m : P β (α × Parser δ)) := by
  intro p
  unfold P.onChild
  simp only
  split <;> rfl
end Quiet

namespace Works
variable {I : Parser (Counted β) → Prop} {r s k k' : Nat}

theorem mono {r' s' : Nat} {m : P (Counted β) α} (h : Works I r s k m) (hr : r ≤ r') (hs : s ≤ s') (hk : k ≤ k') :
    Works I r' s' k' m := by
  intro p hp
  obtain ⟨h1, h2, h3⟩ := h p hp
  refine ⟨h1, h2, ?_⟩
  obtain ⟨d, hd⟩ := Nat.le.dest h2
  obtain ⟨q, hq⟩ := Nat.le.dest hr
  have he : Works.extra s (m p).res ≤ Works.extra s' (m p).res := by
    cases (m p).res <;> simp only [Works.extra] <;> omega
  rw [← hd, Nat.mul_add] at h3 ⊢
  rw [← hq, Nat.add_mul, Nat.add_mul]
  omega

theorem quiet {m : P (Counted β) α} (h : Quiet m) : Works I r s k m := by
  intro p hp
  rw [h p]
  exact ⟨hp, Nat.le_refl _, by omega⟩

theorem bind {m : P (Counted β) α} {c : α → P (Counted β) α'} (h : Works I r s k m) (hc : ∀ a, Works I r s k' (c a)) :
    Works I r s (k + k') (m >>= c) := by
  intro p hp
  obtain ⟨h1, h2, h3⟩ := h p hp
  rcases hm : (m p).res with e | a
  · rw [P.bind_err (P.run_eq _ hm)]
    rw [hm] at h3
    refine ⟨h1, h2, ?_⟩
    simp only [Works.extra] at h3 ⊢
    omega
  · rw [P.bind_ok (P.run_eq _ hm)]
    rw [hm] at h3
    obtain ⟨g1, g2, g3⟩ := hc a _ h1
    refine ⟨g1, Nat.le_trans h2 g2, ?_⟩
    simp only [Works.extra] at h3
    simp only
    omega

/-- A step that costs nothing extra. -/
theorem seq {m : P (Counted β) α} {c : α → P (Counted β) α'} (h : Works I r s 0 m) (hc : ∀ a, Works I r s k (c a)) :
    Works I r s k (m >>= c) := mono (bind h hc) (Nat.le_refl _) (Nat.le_refl _) (by omega)

theorem skip {m : P (Counted β) α} {c : α → P (Counted β) α'} (h : Quiet m) (hc : ∀ a, Works I r s k (c a)) :
    Works I r s k (m >>= c) := seq (quiet h) hc

theorem pure (a : α) : Works I r s k (Pure.pure a : P (Counted β) α) := quiet (Quiet.pure a)
theorem fault (e : Fault) : Works I r s k (P.fault e : P (Counted β) α) := quiet (Quiet.fault e)
theorem fail (e : ParseError) : Works I r s k (P.fail e : P (Counted β) α) := fault _
theorem config : Works I r s k (P.config : P (Counted β) ParseConfig) := quiet Quiet.config
theorem ite {c : Prop} [Decidable c] {a b : P (Counted β) α} (h1 : c → Works I r s k a) (h2 : ¬ c → Works I r s k b) :
    Works I r s k (if c then a else b) := by
  by_cases h : c
  · rw [if_pos h]; exact h1 h
  · rw [if_neg h]; exact h2 h

/-- A surcharge is covered by the bytes that a successful run is known to consume. -/
theorem cover {n : Nat} {m : P (Counted β) α} (h : Works I r s k m) (he : Eats I n m) (hn : k ≤ n) :
    Works I (r + 1) (s + k) 0 m := by
  intro p hp
  obtain ⟨h1, h2, h3⟩ := h p hp
  refine ⟨h1, h2, ?_⟩
  have h4 := (he p hp).2.2.2
  obtain ⟨d, hd⟩ := Nat.le.dest h2
  rw [Nat.add_mul, Nat.add_mul]
  rcases hm : (m p).res with e | a
  · rw [hm] at h3
    simp only [Works.extra] at h3 ⊢
    omega
  · rw [hm] at h3
    have := h4 a hm
    simp only [Works.extra] at h3 ⊢
    omega

variable [ParseBuf β]

theorem chunk (b : Stable I) : Works I r s 1 (P.chunk : P (Counted β) Chunk) := by
  intro p hp
  refine ⟨b.chunk p hp, Nat.le_refl _, ?_⟩
  show p.calls + 1 + r * p.data.offset ≤ _
  have : p.calls + r * p.data.offset + 1 ≤ p.calls + r * (P.chunk p).st.data.offset + 1 + Works.extra s (P.chunk p).res := by
    show _ ≤ p.calls + r * p.data.offset + 1 + _
    omega
  omega

theorem advance_cases (n : Nat) (p : Parser (Counted β)) :
    (P.advance n p = ⟨.error .panic, p, []⟩) ∨
    ∃ p', P.advance n p = ⟨.ok (), p', []⟩ ∧ p'.calls = p.calls + 1 ∧ p'.data.offset = p.data.offset + n := by
  unfold P.advance
  rcases hb : ParseBuf.advance p.data.buf.buf n with _ | b
  · have hd : ParseBuf.advance p.data n = none := by
      show ((ParseBuf.advance p.data.buf.buf n).map _).map _ = none
      rw [hb]; rfl
    rw [hd]
    exact .inl rfl
  · have hd : ParseBuf.advance p.data n = some ⟨⟨b, p.data.buf.calls + 1⟩, p.data.offset + n⟩ := by
      show ((ParseBuf.advance p.data.buf.buf n).map _).map _ = _
      rw [hb]; rfl
    rw [hd]
    exact .inr ⟨_, rfl, rfl, rfl⟩

theorem advance (b : Stable I) (n : Nat) : Works I r s 1 (P.advance n : P (Counted β) Unit) := by
  intro p hp
  have h := b.advance p n hp
  rcases advance_cases n p with hx | ⟨p', hx, e1, e2⟩
  · rw [hx] at h ⊢
    exact ⟨hp, Nat.le_refl _, by simp only; omega⟩
  · rw [hx] at h ⊢
    simp only
    rw [e1, e2, Nat.mul_add]
    exact ⟨h, Nat.le_add_right _ _, by omega⟩

/-- One round of a loop: look at a chunk, advance by at least one byte of it, go on. -/
theorem round (b : Busy I) (hr : 2 ≤ r) (hs : 1 ≤ s) {mid : Chunk → P (Counted β) T} (hm : ∀ c, Quiet (mid c)) {n : Chunk → T → Nat}
    (hn : ∀ c x, c.data ≠ [] → (∃ q, (mid c q).res = .ok x) → 1 ≤ n c x) {k' : Chunk → T → P (Counted β) α} (hc : ∀ c x, c.data ≠ [] → Works I r s k (k' c x)) :
    Works I r s k (P.chunk >>= fun c => mid c >>= fun x => P.advance (n c x) >>= fun _ => k' c x) := by
  intro p hp
  have h1 := b.chunk p hp
  rcases hc1 : (P.chunk p).res with e | c
  · rw [P.bind_err (P.run_eq _ hc1)]
    refine ⟨h1, Nat.le_refl _, ?_⟩
    show p.calls + 1 + r * p.data.offset ≤ p.calls + r * p.data.offset + k + s
    omega
  rw [P.bind_nil (P.run_eq _ hc1)]
  have hne := b.ne p c hp hc1
  generalize hp1 : (P.chunk p).st = p1 at h1
  have e1 : p1.calls = p.calls + 1 := by rw [← hp1]; rfl
  have e2 : p1.data.offset = p.data.offset := by rw [← hp1]; rfl
  have hq := hm c p1
  rcases hx : (mid c p1).res with e | x
  · rw [P.bind_err (P.run_eq _ hx)]
    refine ⟨by rw [hq]; exact h1, by rw [hq, e2]; exact Nat.le_refl _, ?_⟩
    simp only [hq, e1, e2, Works.extra]
    omega
  rw [P.bind_ok (P.run_eq _ hx), hq]
  have h := b.advance p1 (n c x) h1
  rcases advance_cases (n c x) p1 with ha | ⟨p2, ha, e3, e4⟩
  · rw [P.bind_err ha]
    refine ⟨h1, by rw [e2]; exact Nat.le_refl _, ?_⟩
    simp only [e1, e2, Works.extra]
    omega
  · rw [ha] at h
    rw [P.bind_nil ha]
    obtain ⟨g1, g2, g3⟩ := hc c x hne p2 h
    have h2 : 2 ≤ r * n c x := Nat.le_trans hr (Nat.le_mul_of_pos_right r (hn c x hne ⟨p1, hx⟩))
    rw [e4, e2] at g2 g3
    rw [e3, e1, Nat.mul_add] at g3
    refine ⟨g1, Nat.le_trans (Nat.le_add_right _ _) g2, ?_⟩
    simp only
    omega

/-- The same without anything in between. -/
theorem round' (b : Busy I) (hr : 2 ≤ r) (hs : 1 ≤ s) {n : Chunk → Nat}
    (hn : ∀ c, c.data ≠ [] → 1 ≤ n c) {k' : Chunk → P (Counted β) α} (hc : ∀ c, c.data ≠ [] → Works I r s k (k' c)) :
    Works I r s k (P.chunk >>= fun c => P.advance (n c) >>= fun _ => k' c) := by
  have h := round (T := Unit) b hr hs (mid := fun _ => Pure.pure ()) (fun _ => Quiet.pure _) (n := fun c _ => n c)
    (fun c _ h _ => hn c h) (k' := fun c _ => k' c) (fun c _ => hc c)
  intro p hp
  exact h p hp

variable (b : Busy I)
include b

omit b [ParseBuf β] in
theorem ne_len {c : Chunk} (h : c.data ≠ []) : 1 ≤ c.data.length := by
  rcases c with ⟨l, _ | ⟨x, xs⟩⟩
  · exact (h rfl).elim
  · simp

omit b [ParseBuf β] in
theorem truncate_len {c : Chunk} (h : c.data ≠ []) {len : Nat} (hl : ¬ len = 0) : 1 ≤ (c.truncate len).data.length := by
  have := ne_len h
  unfold Chunk.truncate
  split
  · exact this
  · simp only [List.length_take]; omega

theorem toSliceLoop : ∀ (fuel len : Nat) (bs : List Byte), Works I 2 1 0 (P.toSliceLoop fuel len bs : P (Counted β) (List Byte))
  | 0, _, _ => fault _
  | fuel + 1, len, bs => ite (fun _ => pure _) fun hl =>
    round' b (by omega) (by omega) (n := fun c => min c.data.length len) (fun c hc => by have := ne_len hc; omega)
      fun c _ => toSliceLoop fuel _ _
theorem toSlice (len : Nat) : Works I 2 1 0 (P.toSlice len : P (Counted β) (List Byte)) :=
  skip Quiet.fuel fun _ => toSliceLoop b _ len _
theorem bytesSlowLoop : ∀ (fuel len : Nat) (bs : List Byte), Works I 2 1 0 (P.bytesSlowLoop fuel len bs : P (Counted β) (List Byte))
  | 0, _, _ => fault _
  | fuel + 1, len, bs => ite (fun _ => pure _) fun hl =>
    round' b (by omega) (by omega) (n := fun c => (c.truncate len).data.length) (fun c hc => truncate_len hc hl)
      fun c _ => bytesSlowLoop fuel _ _
theorem ignoredLoop : ∀ (fuel len : Nat), Works I 2 1 0 (P.ignoredLoop fuel len : P (Counted β) Unit)
  | 0, _ => fault _
  | fuel + 1, len => ite (fun _ => pure _) fun hl =>
    round' b (by omega) (by omega) (n := fun c => min c.data.length len) (fun c hc => by have := ne_len hc; omega)
      fun c _ => ignoredLoop fuel _
theorem bytesIgnored (len : Nat) : Works I 2 1 0 (P.bytesIgnored len : P (Counted β) Unit) :=
  skip Quiet.fuel fun _ => ignoredLoop b _ len
theorem cursorLoop : ∀ (fuel len : Nat) (cs : List Chunk), Works I 2 1 0 (P.cursorLoop fuel len cs : P (Counted β) (List Chunk))
  | 0, _, _ => fault _
  | fuel + 1, len, cs => ite (fun _ => pure _) fun hl =>
    round b (by omega) (by omega) (mid := fun c => P.pushChunk (c.truncate len) cs) (fun c => Quiet.pushChunk _ _)
      (n := fun c _ => (c.truncate len).data.length) (fun c _ hc _ => truncate_len hc hl) fun c x _ => cursorLoop fuel _ x
theorem splitAt (len : Nat) : Works I 2 1 0 (P.splitAt len : P (Counted β) (Parser Cursor)) :=
  seq (skip Quiet.fuel fun _ => seq (cursorLoop b _ len _) fun _ => pure _) fun _ => skip Quiet.config fun _ => pure _

theorem restLoop : ∀ (n : Nat) (c : Cow Byte), Works I 2 1 1 (P.restLoop n c : P (Counted β) (Cow Byte))
  | 0, _ => fault _
  | n + 1, bs => by
    have hround : Works I 2 1 1 (P.chunk >>= fun c => P.advance c.data.length >>= fun _ =>
        P.restLoop n (.owned (bs.data ++ c.data)) : P (Counted β) (Cow Byte)) :=
      round' b (by omega) (by omega) (n := fun c => c.data.length) (fun c hc => ne_len hc) fun c _ => restLoop n _
    intro p hp
    obtain ⟨h1, h2, h3⟩ := hround p hp
    unfold P.restLoop
    rcases hc : (P.chunk p).res with f | c
    · have hst : (P.chunk p).st.calls = p.calls + 1 := rfl
      have hst' : (P.chunk p).st.data.offset = p.data.offset := rfl
      have h4 := b.chunk p hp
      have done : ∀ o : Out (Counted β) (Cow Byte), o.st = (P.chunk p).st →
          I o.st ∧ p.data.offset ≤ o.st.data.offset ∧
          o.st.calls + 2 * p.data.offset ≤ p.calls + 2 * o.st.data.offset + 1 + Works.extra 1 o.res := by
        rintro o ho
        rw [ho, hst, hst']
        exact ⟨h4, Nat.le_refl _, by omega⟩
      cases f with
      | err e =>
        have hx : P.chunkResult p = ⟨.ok (.error e), (P.chunk p).st, []⟩ := by
          unfold P.chunkResult
          have : (ParseBuf.chunk p.data).1 = .error (.err e) := hc
          rw [this]
          rfl
        rw [P.bind_nil hx]
        simp only
        by_cases hk : e.kind = .eof
        · rw [P.ite_pos hk]; exact done _ rfl
        · rw [P.ite_neg hk]; exact done _ rfl
      | panic =>
        refine done _ ?_
        have hx : (ParseBuf.chunk p.data).1 = .error .panic := hc
        have hy : P.chunkResult p = ⟨.error .panic, (P.chunk p).st, []⟩ := by
          unfold P.chunkResult
          rw [hx]
          rfl
        rw [P.bind_err hy]
      | diverge =>
        refine done _ ?_
        have hx : (ParseBuf.chunk p.data).1 = .error .diverge := hc
        have hy : P.chunkResult p = ⟨.error .diverge, (P.chunk p).st, []⟩ := by
          unfold P.chunkResult
          rw [hx]
          rfl
        rw [P.bind_err hy]
    · have hx : P.chunkResult p = ⟨.ok (.ok c), (P.chunk p).st, []⟩ := by
        unfold P.chunkResult
        have : (ParseBuf.chunk p.data).1 = .ok c := hc
        rw [this]
        rfl
      rw [P.bind_nil hx]
      rw [P.bind_nil (P.run_eq _ hc)] at h1 h2 h3
      exact ⟨h1, h2, h3⟩

theorem rest : Works I 3 2 1 (P.rest : P (Counted β) (Cow Byte)) :=
  mono (round b (r := 2) (by omega) (by omega) (mid := fun c => P.toCow c) (fun c => Quiet.toCow c)
    (n := fun c x => x.data.length) (fun c x hc hx => by
      obtain ⟨q, hq⟩ := hx
      obtain ⟨l, hl⟩ := Sim.toCow_run c q
      rw [hl] at hq
      cases hq
      have hcd : c.toCow.data = c.data := by unfold Chunk.toCow; split <;> rfl
      rw [hcd]
      exact ne_len hc) fun c x _ => skip Quiet.fuel fun _ => restLoop b _ x)
    (by omega) (by omega) (by omega)

theorem restTrimNul : Works I 3 2 1 (P.restTrimNul : P (Counted β) (Cow Byte)) :=
  bind (k' := 0) (rest b) fun _ => pure _

theorem bytesDirect (len : Nat) : Works I r s 2 (P.bytesDirect len : P (Counted β) (Option (Nat × List Byte))) := by
  refine bind (k := 1) (k' := 1) (chunk b.toStable) fun c => ?_
  split
  · exact pure _
  · exact ite (fun _ => pure _) fun _ => bind (k' := 0) (advance b.toStable len) fun _ => pure _

theorem bytes (len : Nat) : Works I 3 2 2 (P.bytes len : P (Counted β) (Cow Byte)) := by
  refine bind (k' := 0) (bytesDirect b len) fun x => ?_
  split
  · exact pure _
  · refine skip Quiet.hint fun _ => ite (fun _ => skip (Quiet.alloc _) fun _ => seq ?_ fun _ => pure _) fun _ =>
      seq (skip (Quiet.safeCapacityBound _) fun _ => skip (Quiet.alloc _) fun _ => skip Quiet.fuel fun _ => ?_) fun _ => pure _
    · exact mono (toSlice b len) (by omega) (by omega) (Nat.le_refl _)
    · exact mono (bytesSlowLoop b _ len _) (by omega) (by omega) (Nat.le_refl _)

theorem array (n : Nat) (hn : 1 ≤ n) : Works I 3 2 0 (P.array n : P (Counted β) (List Byte)) := by
  intro p hp
  have h1 : Works I 2 1 1 (P.toSlice n : P (Counted β) (List Byte)) := mono (toSlice b n) (by omega) (by omega) (by omega)
  by_cases hc : ∃ c, (P.chunk p).res = .ok c ∧ ¬ c.data.length < n
  · obtain ⟨c, hc, hl⟩ := hc
    have hr := (round' (k := 0) b (r := 3) (s := 2) (by omega) (by omega) (n := fun _ => n) (fun _ _ => hn)
      (k' := fun c => Pure.pure (c.data.take n)) (fun c _ => pure _)) p hp
    rw [P.bind_nil (P.run_eq _ hc)] at hr
    unfold P.array
    rw [P.bind_nil (P.run_eq _ hc), P.ite_neg hl]
    exact hr
  · have hr := (cover (bind (chunk b.toStable (r := 2) (s := 1)) fun _ => toSlice b n)
      (Eats.bind (Eats.chunk b.toStable) fun _ => Eats.toSlice b.toStable n) (by omega)) p hp
    unfold P.array
    rcases hcr : (P.chunk p).res with e | c
    · rw [P.bind_err (P.run_eq _ hcr)] at hr ⊢
      exact hr
    · rw [P.bind_nil (P.run_eq _ hcr)] at hr ⊢
      rw [P.ite_pos (Decidable.byContradiction fun h => hc ⟨c, hcr, h⟩)]
      exact hr

omit b [ParseBuf β] in
theorem repeatedLoop {item : P (Counted β) T} (h : Works I r s 0 item) : ∀ len, Works I r s 0 (P.repeatedLoop item len)
  | 0 => pure _
  | len + 1 => seq h fun _ => seq (repeatedLoop h len) fun _ => pure _

theorem slice (e : Elem T) {item : P (Counted β) T} (h : Works I 3 2 0 item) (len : Nat) :
    Works I 3 2 2 (P.slice e item len : P (Counted β) (Cow T)) := by
  refine bind (k := 2) (k' := 0) ?_ fun x => ?_
  · refine skip Quiet.config fun c => ite (fun _ => pure _) fun _ => ite (fun _ => fail _) fun _ =>
      bind (k' := 0) (bytesDirect b _) fun y => ?_
    split
    · exact pure _
    · exact ite (fun _ => pure _) fun _ => pure _
  · split
    · exact pure _
    · exact seq (skip (Quiet.safeCapacityBound _) fun _ => skip (Quiet.alloc _) fun _ => repeatedLoop h len) fun _ => pure _

theorem padded (n : Nat) {m : P (Counted β) α} (h : Works I 3 2 k m) : Works I 3 2 k (P.padded n m) :=
  ite (fun _ => fault _) fun _ => skip Quiet.offset fun _ => bind (k' := 0) h fun _ => skip Quiet.offset fun _ =>
    ite (fun _ => pure _) fun _ => seq (mono (bytesIgnored b _) (by omega) (by omega) (Nat.le_refl _)) fun _ => pure _

omit b in
theorem parseIf (c : Bool) {m : P (Counted β) α} (h : Works I r s k m) : Works I r s k (Perf.parseIf c m) := by
  cases c with
  | true => exact bind (k' := 0) h fun _ => pure _
  | false => exact pure _

omit b in
theorem cowSplitAt (c : Cow T) (n : Nat) : Works I r s k (ParserM.cowSplitAt c n : P (Counted β) (Cow T × Cow T)) := by
  show Works I r s k (match c.splitAt n with | some r => Pure.pure r | none => P.fault .panic)
  split
  · exact pure _
  · exact fault _

theorem u8 : Works I 3 2 0 (parseU8 : P (Counted β) U8) := seq (array b 1 (by omega)) fun _ => pure _
theorem u16 : Works I 3 2 0 (parseU16 : P (Counted β) U16) := seq (array b 2 (by omega)) fun _ => skip Quiet.config fun _ => pure _
theorem u32 : Works I 3 2 0 (parseU32 : P (Counted β) U32) := seq (array b 4 (by omega)) fun _ => skip Quiet.config fun _ => pure _
theorem u64 : Works I 3 2 0 (parseU64 : P (Counted β) U64) := seq (array b 8 (by omega)) fun _ => skip Quiet.config fun _ => pure _

/-! ## The record bodies -/

theorem header : Works I 3 2 0 (parseHeader : P (Counted β) Header) :=
  seq (u32 b) fun _ => seq (u16 b) fun _ => seq (u16 b) fun _ => pure _
theorem cpu : Works I 3 2 0 (parseCpu : P (Counted β) U32) := seq (u32 b) fun _ => seq (u32 b) fun _ => pure _
theorem sampleId : Works I 3 2 0 (parseSampleId : P (Counted β) SampleId) :=
  seq config fun _ => ite (fun _ => pure _) fun _ =>
    seq (parseIf _ (u32 b)) fun _ => seq (parseIf _ (u32 b)) fun _ => seq (parseIf _ (u64 b)) fun _ =>
    seq (parseIf _ (u64 b)) fun _ => seq (parseIf _ (u64 b)) fun _ => seq (parseIf _ (cpu b)) fun _ =>
    seq (parseIf _ (u64 b)) fun _ => pure _
theorem mmap : Works I 3 2 1 (parseMmap : P (Counted β) (Mmap Cow)) :=
  seq (u32 b) fun _ => seq (u32 b) fun _ => seq (u64 b) fun _ => seq (u64 b) fun _ => seq (u64 b) fun _ =>
  bind (restTrimNul b) fun _ => pure (k := 0) _
theorem lost : Works I 3 2 0 (parseLost : P (Counted β) Lost) := seq (u64 b) fun _ => seq (u64 b) fun _ => pure _
theorem comm : Works I 3 2 1 (parseComm : P (Counted β) (Comm Cow)) :=
  seq (u32 b) fun _ => seq (u32 b) fun _ => bind (restTrimNul b) fun _ => pure (k := 0) _
theorem exit : Works I 3 2 0 (parseExit : P (Counted β) Exit) :=
  seq (u32 b) fun _ => seq (u32 b) fun _ => seq (u32 b) fun _ => seq (u32 b) fun _ => seq (u64 b) fun _ => pure _
theorem throttle : Works I 3 2 0 (parseThrottle : P (Counted β) Throttle) :=
  seq (u64 b) fun _ => seq (u64 b) fun _ => seq (u64 b) fun _ => pure _
theorem mmapDetail : Works I 3 2 0 (parseMmapDetail : P (Counted β) MmapDetail) :=
  seq config fun _ => ite
    (fun _ => seq (u8 b) fun _ => seq (u8 b) fun _ => seq (u16 b) fun _ => seq (array b 20 (by omega)) fun _ =>
      ite (fun _ => fail _) fun _ => pure _)
    fun _ => seq (u32 b) fun _ => seq (u32 b) fun _ => seq (u64 b) fun _ => seq (u64 b) fun _ => pure _
theorem mmap2 : Works I 3 2 1 (parseMmap2 : P (Counted β) (Mmap2 Cow)) :=
  seq (u32 b) fun _ => seq (u32 b) fun _ => seq (u64 b) fun _ => seq (u64 b) fun _ => seq (u64 b) fun _ =>
  seq (mmapDetail b) fun _ => seq (u32 b) fun _ => seq (u32 b) fun _ => bind (restTrimNul b) fun _ => pure (k := 0) _
theorem aux : Works I 3 2 0 (parseAux : P (Counted β) Aux) :=
  seq (u64 b) fun _ => seq (u64 b) fun _ => seq (u64 b) fun _ => pure _
theorem itraceStart : Works I 3 2 0 (parseITraceStart : P (Counted β) ITraceStart) :=
  seq (u32 b) fun _ => seq (u32 b) fun _ => pure _
theorem lostSamples : Works I 3 2 0 (parseLostSamples : P (Counted β) LostSamples) := seq (u64 b) fun _ => pure _
theorem switchCpuWide : Works I 3 2 0 (parseSwitchCpuWide : P (Counted β) SwitchCpuWide) :=
  seq (u32 b) fun _ => seq (u32 b) fun _ => seq config fun _ => ite (fun _ => pure _) fun _ => pure _
theorem namespaceEntry : Works I 3 2 0 (parseNamespaceEntry : P (Counted β) NamespaceEntry) :=
  seq (u64 b) fun _ => seq (u64 b) fun _ => pure _
theorem namespaces : Works I 3 2 2 (parseNamespaces : P (Counted β) (Namespaces Cow)) :=
  seq (u32 b) fun _ => seq (u32 b) fun _ => seq (u64 b) fun _ =>
  bind (slice b NamespaceEntry.elem (namespaceEntry b) _) fun _ => pure (k := 0) _
theorem ksymbol : Works I 3 2 1 (parseKSymbol : P (Counted β) (KSymbol Cow)) :=
  seq (u64 b) fun _ => seq (u32 b) fun _ => seq (u16 b) fun _ => seq (u16 b) fun _ =>
  bind (restTrimNul b) fun _ => pure (k := 0) _
theorem bpfEvent : Works I 3 2 0 (parseBpfEvent : P (Counted β) BpfEvent) :=
  seq (u16 b) fun _ => seq (u16 b) fun _ => seq (u32 b) fun _ => seq (array b 8 (by omega)) fun _ => pure _
theorem cgroup : Works I 3 2 1 (parseCGroup : P (Counted β) (CGroup Cow)) :=
  seq (u64 b) fun _ => bind (restTrimNul b) fun _ => pure (k := 0) _
theorem textPoke : Works I 3 2 2 (parseTextPoke : P (Counted β) (TextPoke Cow)) :=
  seq (u64 b) fun _ => seq (u16 b) fun _ => seq (u16 b) fun _ => bind (k' := 0) (bytes b _) fun _ =>
  seq (cowSplitAt _ _) fun _ => pure _
theorem auxOutputHwId : Works I 3 2 0 (parseAuxOutputHwId : P (Counted β) AuxOutputHwId) := seq (u64 b) fun _ => pure _
theorem readValue : Works I 3 2 0 (parseReadValue : P (Counted β) ReadValue) :=
  seq config fun _ => ite (fun _ => fail _) fun _ => ite (fun _ => fail _) fun _ =>
  seq (u64 b) fun _ => seq (parseIf _ (u64 b)) fun _ => seq (parseIf _ (u64 b)) fun _ =>
  seq (parseIf _ (u64 b)) fun _ => seq (parseIf _ (u64 b)) fun _ => pure _
theorem read : Works I 3 2 0 (parseRead : P (Counted β) Read) :=
  seq (u32 b) fun _ => seq (u32 b) fun _ => seq (readValue b) fun _ => pure _
theorem words (len : Nat) : Works I 3 2 2 (P.slice U64.elem parseU64 len : P (Counted β) (Cow U64)) :=
  slice b U64.elem (u64 b) len
theorem readGroup : Works I 3 2 2 (parseReadGroup : P (Counted β) (ReadGroup Cow)) :=
  seq config fun _ => ite (fun _ => fail _) fun _ => ite (fun _ => fail _) fun _ =>
  seq (u64 b) fun _ => seq (parseIf _ (u64 b)) fun _ => seq (parseIf _ (u64 b)) fun _ =>
  ite (fun _ => fail _) fun _ => bind (words b _) fun _ => pure (k := 0) _
theorem values : Works I 3 2 2 (parseValues : P (Counted β) (ReadGroup Cow)) :=
  seq config fun _ => ite (fun _ => readGroup b) fun _ => seq (readValue b) fun _ => pure _
theorem callchain : Works I 3 2 2 (parseCallchain : P (Counted β) (Cow U64)) := seq (u64 b) fun _ => words b _
theorem rawInner : Works I 3 2 2 (parseRawInner : P (Counted β) (Cow Byte)) := seq (u32 b) fun _ => bytes b _
theorem branchEntry : Works I 3 2 0 (parseBranchEntry : P (Counted β) BranchEntry) :=
  seq (u64 b) fun _ => seq (u64 b) fun _ => seq (u64 b) fun _ => pure _
theorem lbr (x : Bool) : Works I 3 2 2 (parseLbr x : P (Counted β) (Cow BranchEntry × Option U64)) :=
  seq (u64 b) fun _ => seq (parseIf _ (u64 b)) fun _ =>
  bind (slice b BranchEntry.elem (branchEntry b) _) fun _ => pure (k := 0) _
theorem registers (mask : U64) : Works I 3 2 2 (parseRegisters mask : P (Counted β) (Registers Cow)) :=
  seq (u64 b) fun _ => bind (words b _) fun _ => pure (k := 0) _
theorem dynSize (size : U64) : Works I 3 2 0 (parseDynSize size : P (Counted β) U64) := ite (fun _ => pure _) fun _ => u64 b
theorem stackUser : Works I 3 2 2 (parseStackUser : P (Counted β) (Cow Byte)) :=
  seq (u64 b) fun _ => bind (k' := 0) (bytes b _) fun _ => seq (dynSize b _) fun _ => ite (fun _ => fail _) fun _ => pure _
theorem auxData : Works I 3 2 2 (parseAuxData : P (Counted β) (Cow Byte)) := seq (u64 b) fun _ => bytes b _

theorem sample : Works I 3 2 16 (parseSample : P (Counted β) (Sample Cow)) :=
  seq config fun _ =>
  seq (parseIf _ (u64 b)) fun _ => seq (parseIf _ (u64 b)) fun _ => seq (parseIf _ (u32 b)) fun _ =>
  seq (parseIf _ (u32 b)) fun _ => seq (parseIf _ (u64 b)) fun _ => seq (parseIf _ (u64 b)) fun _ =>
  seq (parseIf _ (u64 b)) fun _ => seq (parseIf _ (u64 b)) fun _ => seq (parseIf _ (cpu b)) fun _ =>
  seq (parseIf _ (u64 b)) fun _ => bind (k' := 14) (parseIf _ (values b)) fun _ =>
  bind (k' := 12) (parseIf _ (callchain b)) fun _ =>
  bind (k' := 10) (parseIf _ (padded b 8 (rawInner b))) fun _ => bind (k' := 8) (parseIf _ (lbr b _)) fun _ =>
  bind (k' := 6) (parseIf _ (seq config fun _ => registers b _)) fun _ => bind (k' := 4) (parseIf _ (stackUser b)) fun _ =>
  seq (parseIf _ (u64 b)) fun _ => seq (parseIf _ (u64 b)) fun _ => seq (parseIf _ (u64 b)) fun _ =>
  bind (k' := 2) (parseIf _ (seq config fun _ => registers b _)) fun _ => seq (parseIf _ (u64 b)) fun _ =>
  seq (parseIf _ (u64 b)) fun _ => seq (parseIf _ (u64 b)) fun _ => seq (parseIf _ (u64 b)) fun _ =>
  bind (k' := 0) (parseIf _ (auxData b)) fun _ => pure _

omit b [ParseBuf β] in
theorem visit {O : Type} {m : P (Counted β) α} (h : Works I 3 2 k m) (hk : k ≤ 16) (f : α → Except Fault O) :
    Works I 3 2 16 (m >>= fun a => P.ofExcept (f a)) :=
  mono (bind (k' := 0) h fun _ => quiet (Quiet.ofExcept _)) (Nat.le_refl _) (Nat.le_refl _) hk

theorem dispatch {O : Type} (v : Visitor Cow O) (md : Metadata) : Works I 3 2 16 (P.dispatch v md : P (Counted β) O) := by
  unfold P.dispatch
  split
  · exact visit (mmap b) (by omega) _
  · exact visit (lost b) (by omega) _
  · exact visit (comm b) (by omega) _
  · exact visit (exit b) (by omega) _
  · exact visit (throttle b) (by omega) _
  · exact visit (throttle b) (by omega) _
  · exact visit (exit b) (by omega) _
  · exact visit (read b) (by omega) _
  · exact visit (sample b) (by omega) _
  · exact visit (mmap2 b) (by omega) _
  · exact visit (aux b) (by omega) _
  · exact visit (itraceStart b) (by omega) _
  · exact visit (lostSamples b) (by omega) _
  · exact visit (switchCpuWide b) (by omega) _
  · exact visit (namespaces b) (by omega) _
  · exact visit (ksymbol b) (by omega) _
  · exact visit (bpfEvent b) (by omega) _
  · exact visit (cgroup b) (by omega) _
  · exact visit (textPoke b) (by omega) _
  · exact visit (auxOutputHwId b) (by omega) _
  · exact visit (rest b) (by omega) _

theorem metadataWithHeader (h : Header) : Works I 3 2 0 (P.metadataWithHeader h : P (Counted β) (Parser Cursor × Metadata)) :=
  ite (fun _ => fail _) fun _ => seq (mono (splitAt b _) (by omega) (by omega) (Nat.le_refl _)) fun q =>
    ite (fun _ => pure _) fun _ => ite (fun _ => fail _) fun _ => skip (Quiet.onChild _ _) fun _ =>
      skip (Quiet.onChild _ _) fun _ => pure _

theorem recordWithHeader {O : Type} (v : Visitor Cow O) (h : Header) : Works I 3 2 0 (P.recordWithHeader v h : P (Counted β) O) := by
  refine seq (metadataWithHeader b h) fun x => ?_
  obtain ⟨q, md⟩ := x
  have hq : ∀ {γ : Type} [ParseBuf γ] (q : Parser γ), Works I 3 2 0 (P.recordImpl q v md : P (Counted β) O) :=
    fun q => skip (Quiet.onChild _ _) fun _ => pure _
  show Works I 3 2 0 (match q.data.buf.asSlice with
    | some data => P.recordImpl (Parser.new data q.config) v md
    | none => P.recordImpl q v md)
  split
  · exact hq _
  · exact hq _

theorem record {O : Type} (v : Visitor Cow O) : Works I 3 2 0 (P.record v : P (Counted β) O) :=
  seq (header b) fun h => recordWithHeader b v h

end Works
end Perf
