import Verif.Proof.Rel
import Verif.Proof.Top
/-!
# An `Eof` error means that the input is used up

`UsesUp m`: on a buffer that keeps reporting its end, if `m` fails with an error of kind `Eof` then it has consumed the whole
input.
-/
namespace Perf
variable {β : Type} [ParseBuf β] [LawfulEof β] {α γ T : Type}

/-- The outcome `o` of a call on the input `f`. -/
def DrainOut (f : Flat) (o : Out β α) : Prop :=
  match o.res with
  | .ok _ => ∃ k, k ≤ f.s.bytes.length ∧ RepP o.st (f.adv k)
  | .error (.err e) => e.kind = .eof → RepP o.st (f.adv f.s.bytes.length)
  | .error _ => True

def UsesUp (m : P β α) : Prop := ∀ p f, RepP p f → f.s.fin.kind = .eof → DrainOut f (m p)

theorem DrainOut.step {f : Flat} {k : Nat} {o : Out β α} (hk : k ≤ f.s.bytes.length) (h : DrainOut (f.adv k) o) :
    DrainOut f o := by
  unfold DrainOut at h ⊢
  split at h
  · obtain ⟨j, hj, hr⟩ := h
    rw [Flat.adv_adv] at hr
    rw [Flat.adv_bytes, List.length_drop] at hj
    exact ⟨k + j, by omega, hr⟩
  · intro he
    have hr := h he
    rw [Flat.adv_adv, Flat.adv_bytes, List.length_drop, show k + (f.s.bytes.length - k) = f.s.bytes.length by omega] at hr
    exact hr
  · trivial

/-- `chunk` at the end. -/
theorem P.chunk_drained {p : Parser β} {f : Flat} (h : RepP p f) (hk : f.s.fin.kind = .eof) (he : f.s.bytes = []) :
    ∃ q, P.chunk p = ⟨.error (.err f.s.fin), q, []⟩ ∧ RepP q (f.adv f.s.bytes.length) := by
  obtain ⟨q, h1, h2, _⟩ := P.chunk_eof LawfulEof.eof_law h he hk
  exact ⟨q, h1, by rw [he]; exact (Flat.adv_zero f).symm ▸ h2⟩

namespace UsesUp

theorem pure (a : α) : UsesUp (Pure.pure a : P β α) := fun _ f h _ =>
  ⟨0, Nat.zero_le _, by rw [Flat.adv_zero]; exact h⟩

theorem bind {m : P β α} {k : α → P β γ} (h : UsesUp m) (hk : ∀ a, UsesUp (k a)) : UsesUp (m >>= k) := by
  intro p f hp he
  have h1 := h p f hp he
  unfold DrainOut at h1
  rcases hres : (m p).res with e | a
  · rw [hres] at h1
    rw [P.bind_err (P.run_eq _ hres)]
    unfold DrainOut
    cases e <;> exact h1
  · rw [hres] at h1
    obtain ⟨n, hn, hr⟩ := h1
    rw [P.bind_ok (P.run_eq _ hres)]
    exact DrainOut.step hn (hk a _ _ hr he)

theorem fault (e : Fault) (he : e.Own) : UsesUp (P.fault e : P β α) := by
  intro p f hp hf
  show DrainOut f ⟨.error e, p, []⟩
  unfold DrainOut
  cases e with
  | err x => exact fun h => absurd h (he x rfl)
  | _ => trivial

theorem keep {m : P β α} (h : ∀ p, ∃ a l, m p = ⟨.ok a, p, l⟩) : UsesUp m := by
  intro p f hp hf
  obtain ⟨a, l, h1⟩ := h p
  rw [h1]
  exact ⟨0, Nat.zero_le _, by rw [Flat.adv_zero]; exact hp⟩

theorem config : UsesUp (P.config : P β ParseConfig) := keep fun _ => ⟨_, _, rfl⟩
theorem offset : UsesUp (P.offset : P β Nat) := keep fun _ => ⟨_, _, rfl⟩
theorem hint : UsesUp (P.hint : P β (Option Nat)) := keep fun _ => ⟨_, _, rfl⟩
theorem fuel : UsesUp (P.fuel : P β Nat) := keep fun _ => ⟨_, _, rfl⟩
theorem alloc (n : Nat) : UsesUp (P.alloc n : P β Unit) := keep fun _ => ⟨_, _, rfl⟩

/-- Asking for a chunk and going on with it. -/
theorem chunk {k : Chunk → P β γ}
    (hk : ∀ (c : Chunk) q f, RepP q f → f.s.fin.kind = .eof → c.data ≠ [] → c.data <+: f.s.bytes →
      (∀ n, n ≤ c.data.length → ∃ q', P.advance n q = ⟨.ok (), q', []⟩ ∧ RepP q' (f.adv n)) → DrainOut f (k c q)) :
    UsesUp (P.chunk >>= k) := by
  intro p f hp hf
  by_cases he : f.s.bytes = []
  · obtain ⟨q, h1, h2⟩ := P.chunk_drained hp hf he
    rw [P.bind_err h1]
    exact fun _ => h2
  · obtain ⟨c, q, hq, hcne, hpre, _, hrep, _, _, hadv⟩ := P.chunk_some hp he
    rw [P.bind_nil hq]
    exact hk c q f hrep hf hcne hpre fun n hn => by
      obtain ⟨q', h1, h2, _⟩ := hadv n hn
      exact ⟨q', h1, h2⟩

/-- Consuming part of the chunk and going on. -/
theorem advance {k : Unit → P β γ} (hk : UsesUp (k ())) {c : Chunk} {q : Parser β} {f : Flat} {n : Nat}
    (hf : f.s.fin.kind = .eof) (hpre : c.data <+: f.s.bytes) (hn : n ≤ c.data.length)
    (hadv : ∀ n, n ≤ c.data.length → ∃ q', P.advance n q = ⟨.ok (), q', []⟩ ∧ RepP q' (f.adv n)) :
    DrainOut f ((P.advance n >>= k) q) := by
  obtain ⟨q', h1, h2⟩ := hadv n hn
  rw [P.bind_nil h1]
  exact DrainOut.step (Nat.le_trans hn hpre.length_le) (hk _ _ h2 hf)

theorem truncate_length (c : Chunk) (n : Nat) : (c.truncate n).data.length ≤ c.data.length := by
  unfold Chunk.truncate
  split
  · exact Nat.le_refl _
  · simp only [List.length_take]; omega

theorem toSliceLoop : ∀ (n len : Nat) (w : List Byte), UsesUp (P.toSliceLoop n len w : P β (List Byte)) := by
  intro n
  induction n with
  | zero => intro len w; exact fault _ nofun
  | succ n ih =>
    intro len w
    unfold P.toSliceLoop
    split
    · exact pure _
    · exact chunk fun c q f _ hf _ hpre hadv => advance (ih _ _) hf hpre (Nat.min_le_left _ _) hadv

theorem bytesSlowLoop : ∀ (n len : Nat) (w : List Byte), UsesUp (P.bytesSlowLoop n len w : P β (List Byte)) := by
  intro n
  induction n with
  | zero => intro len w; exact fault _ nofun
  | succ n ih =>
    intro len w
    unfold P.bytesSlowLoop
    split
    · exact pure _
    · exact chunk fun c q f _ hf _ hpre hadv => advance (ih _ _) hf hpre (truncate_length _ _) hadv

theorem ignoredLoop : ∀ (n len : Nat), UsesUp (P.ignoredLoop n len : P β Unit) := by
  intro n
  induction n with
  | zero => intro len; exact fault _ nofun
  | succ n ih =>
    intro len
    unfold P.ignoredLoop
    split
    · exact pure _
    · exact chunk fun c q f _ hf _ hpre hadv => advance (ih _) hf hpre (Nat.min_le_left _ _) hadv

theorem toCow (c : Chunk) : UsesUp (P.toCow c : P β (Cow Byte)) := by
  unfold P.toCow
  split
  · exact bind (alloc _) fun _ => pure _
  · exact pure _

theorem cursorLoop : ∀ (n len : Nat) (cs : List Chunk), UsesUp (P.cursorLoop n len cs : P β (List Chunk)) := by
  intro n
  induction n with
  | zero => intro len cs; exact fault _ nofun
  | succ n ih =>
    intro len cs
    unfold P.cursorLoop
    split
    · exact pure _
    · refine chunk fun c q f hq hf _ hpre hadv => ?_
      have hpush : ∃ l x, P.pushChunk (c.truncate len) cs q = ⟨.ok x, q, l⟩ := by
        unfold P.pushChunk P.toCow
        rcases c.truncate len with ⟨loc, data⟩
        split
        · cases loc
          · exact ⟨_, _, rfl⟩
          · exact ⟨_, _, rfl⟩
        · exact ⟨_, _, rfl⟩
      obtain ⟨l, x, hx⟩ := hpush
      show DrainOut f ((P.pushChunk (c.truncate len) cs >>= _) q)
      rw [P.bind_ok hx]
      exact advance (ih _ _) hf hpre (truncate_length _ _) hadv

theorem toSlice (n : Nat) : UsesUp (P.toSlice n : P β (List Byte)) := bind fuel fun _ => toSliceLoop _ _ _

theorem array (n : Nat) : UsesUp (P.array n : P β (List Byte)) := by
  unfold P.array
  refine chunk fun c q f hq hf _ hpre hadv => ?_
  by_cases h : c.data.length < n
  · rw [if_pos h]
    exact toSlice n q f hq hf
  · rw [if_neg h]
    exact advance (k := fun _ => Pure.pure _) (n := n) (pure _) hf hpre (by omega) hadv

theorem bytesDirect (n : Nat) : UsesUp (P.bytesDirect n : P β (Option (Nat × List Byte))) := by
  unfold P.bytesDirect
  refine chunk fun c q f hq hf _ hpre hadv => ?_
  rcases c with ⟨loc, data⟩
  cases loc with
  | temporary => exact pure _ q f hq hf
  | external addr =>
    by_cases h : data.length < n
    · simp only [if_pos h]
      exact pure _ q f hq hf
    · simp only [if_neg h]
      exact advance (k := fun _ => Pure.pure _) (c := ⟨.external addr, data⟩) (n := n) (pure _) hf hpre (by simp only; omega) hadv

theorem ite {c : Prop} [Decidable c] {a b : P β α} (h1 : UsesUp a) (h2 : UsesUp b) : UsesUp (if c then a else b) := by
  split
  · exact h1
  · exact h2

theorem safeCapacityBound (n : Nat) : UsesUp (P.safeCapacityBound n : P β Nat) := by
  unfold P.safeCapacityBound
  exact ite (pure _) (bind hint fun _ => pure _)

theorem bytes (n : Nat) : UsesUp (P.bytes n : P β (Cow Byte)) := by
  unfold P.bytes
  refine bind (bytesDirect n) fun r => ?_
  cases r with
  | some r => exact pure _
  | none =>
    refine bind hint fun h => ite ?_ ?_
    · exact bind (alloc _) fun _ => bind (toSlice _) fun _ => pure _
    · exact bind (bind (safeCapacityBound _) fun _ => bind (alloc _) fun _ => bind fuel fun _ => bytesSlowLoop _ _ _)
        fun _ => pure _

theorem padded {m : P β α} (n : Nat) (h : UsesUp m) : UsesUp (P.padded n m) := by
  unfold P.padded
  refine ite (fault _ nofun) (bind offset fun _ => bind h fun _ => bind offset fun _ => ite (pure _) ?_)
  exact bind (bind fuel fun _ => ignoredLoop _ _) fun _ => pure _

theorem restLoop : ∀ (n : Nat) (b : Cow Byte), UsesUp (P.restLoop n b : P β (Cow Byte)) := by
  intro n
  induction n with
  | zero => intro b; exact fault _ nofun
  | succ n ih =>
    intro b p f hp hf
    unfold P.restLoop
    by_cases he : f.s.bytes = []
    · obtain ⟨q, h1, h2⟩ := P.chunk_drained hp hf he
      have h3 : P.chunkResult p = ⟨.ok (.error f.s.fin), q, []⟩ := by
        unfold P.chunk at h1
        unfold P.chunkResult
        injection h1 with h1 h4
        rw [h1]
        simp only [h4]
      rw [P.bind_nil h3]
      simp only
      rw [if_pos hf]
      exact ⟨_, Nat.le_refl _, h2⟩
    · obtain ⟨c, q, hq, hcne, hpre, _, hrep, _, _, hadv⟩ := P.chunk_some hp he
      have h3 : P.chunkResult p = ⟨.ok (.ok c), q, []⟩ := by
        unfold P.chunk at hq
        unfold P.chunkResult
        injection hq with h1 h4
        rw [h1]
        simp only [h4]
      rw [P.bind_nil h3]
      exact advance (ih _) hf hpre (Nat.le_refl _) fun n hn => by
        obtain ⟨q', h1, h2, _⟩ := hadv n hn
        exact ⟨q', h1, h2⟩

theorem rest : UsesUp (P.rest : P β (Cow Byte)) := by
  unfold P.rest
  refine chunk fun c q f hq hf _ hpre hadv => ?_
  have hc : ∃ l, P.toCow c q = ⟨.ok c.toCow, q, l⟩ := by
    rcases c with ⟨loc, data⟩
    cases loc <;> exact ⟨_, rfl⟩
  obtain ⟨l, hx⟩ := hc
  have hd : c.toCow.data = c.data := by
    unfold Chunk.toCow
    split <;> rfl
  rw [P.bind_ok hx]
  exact advance (bind fuel fun _ => restLoop _ _) hf hpre (by rw [hd]; exact Nat.le_refl _) hadv

theorem repeatedLoop {m : P β T} (h : UsesUp m) : ∀ n, UsesUp (P.repeatedLoop m n) := by
  intro n
  induction n with
  | zero => exact pure _
  | succ n ih => exact bind h fun _ => bind ih fun _ => pure _

theorem slice {m : P β T} (e : Elem T) (n : Nat) (h : UsesUp m) : UsesUp (P.slice e m n) := by
  unfold P.slice
  refine bind ?_ fun r => ?_
  · unfold P.sliceDirect
    refine bind config fun cfg => ite (pure _) (ite (fault _ fun x hx => by cases hx; rw [ParseError.custom_kind]; decide) ?_)
    refine bind (bytesDirect _) fun r => ?_
    cases r with
    | none => exact pure _
    | some r => exact ite (pure _) (pure _)
  · cases r with
    | some s => exact pure _
    | none => exact bind (bind (safeCapacityBound _) fun _ => bind (alloc _) fun _ => repeatedLoop h n) fun _ => pure _

theorem closed : Closed (fun {α} (m _ : P β α) => UsesUp m) where
  pure := pure
  bind := bind
  fault := fault
  config := config
  array := array
  bytes := bytes
  rest := rest
  padded := padded
  slice := slice

theorem newCursor (n : Nat) : UsesUp (P.newCursor n : P β Cursor) := bind fuel fun _ => bind (cursorLoop _ _ _) fun _ => pure _
theorem splitAt (n : Nat) : UsesUp (P.splitAt n : P β (Parser Cursor)) := bind (newCursor n) fun _ => bind config fun _ => pure _

end UsesUp
end Perf
