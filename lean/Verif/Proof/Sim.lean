import Verif.Proof.Rel
import Verif.Proof.Dispatch
/-!
# Buffers that show the same chunks

If two buffers show the same chunks one after the other (whatever their hints), every record parser gives the same
result on both: same values, same `Cow` variants, same errors.
-/
namespace Perf
variable {β γ : Type} [ParseBuf β] [ParseBuf γ] {α α' T : Type}

/-- `R` is kept by the buffer operations, which give the same results on both sides. -/
structure BufSim (R : β → γ → Prop) : Prop where
  chunk : ∀ b c, R b c → (ParseBuf.chunk b).1 = (ParseBuf.chunk c).1 ∧ R (ParseBuf.chunk b).2 (ParseBuf.chunk c).2
  nonempty : ∀ b c x, R b c → (ParseBuf.chunk b).1 = .ok x → x.data ≠ []
  steps : ∀ b c, R b c → ParseBuf.steps (ParseBuf.chunk b).2 ≤ ParseBuf.steps b ∧
    ParseBuf.steps (ParseBuf.chunk c).2 ≤ ParseBuf.steps c
  advance : ∀ b c n, R b c → (ParseBuf.advance b n = none ∧ ParseBuf.advance c n = none) ∨
    ∃ b' c', ParseBuf.advance b n = some b' ∧ ParseBuf.advance c n = some c' ∧ R b' c' ∧
      ParseBuf.steps b' + n ≤ ParseBuf.steps b ∧ ParseBuf.steps c' + n ≤ ParseBuf.steps c

/-- The relation on parsers. -/
structure SimP (R : β → γ → Prop) (p : Parser β) (q : Parser γ) : Prop where
  buf : R p.data.buf q.data.buf
  offset : p.data.offset = q.data.offset
  config : p.config = q.config

/-- Same result on related parsers, which stay related. -/
def Sim (R : β → γ → Prop) {α : Type} (m : P β α) (m' : P γ α) : Prop :=
  ∀ p q, SimP R p q → (m p).res = (m' q).res ∧ SimP R (m p).st (m' q).st

namespace Sim
variable {R : β → γ → Prop}

omit [ParseBuf β] [ParseBuf γ] in
theorem pure (a : α) : Sim R (Pure.pure a : P β α) (Pure.pure a) := fun _ _ h => ⟨rfl, h⟩
omit [ParseBuf β] [ParseBuf γ] in
theorem fault (e : Fault) : Sim R (P.fault e : P β α) (P.fault e) := fun _ _ h => ⟨rfl, h⟩

omit [ParseBuf β] [ParseBuf γ] in
/-- Sequencing, at one pair of parsers. -/
theorem seq {m : P β α} {m' : P γ α} {k : α → P β α'} {k' : α → P γ α'} {p : Parser β} {q : Parser γ}
    (h : (m p).res = (m' q).res ∧ SimP R (m p).st (m' q).st)
    (hk : ∀ a, (m p).res = .ok a → (m' q).res = .ok a →
      (k a (m p).st).res = (k' a (m' q).st).res ∧ SimP R (k a (m p).st).st (k' a (m' q).st).st) :
    ((m >>= k) p).res = ((m' >>= k') q).res ∧ SimP R ((m >>= k) p).st ((m' >>= k') q).st := by
  rcases hm : (m p).res with e | a
  · rw [P.bind_err (P.run_eq _ hm), P.bind_err (P.run_eq _ (h.1 ▸ hm))]
    exact ⟨rfl, h.2⟩
  · rw [P.bind_ok (P.run_eq _ hm), P.bind_ok (P.run_eq _ (h.1 ▸ hm))]
    exact hk a hm (h.1 ▸ hm)

omit [ParseBuf β] [ParseBuf γ] in
theorem bind {m : P β α} {m' : P γ α} {k : α → P β α'} {k' : α → P γ α'} (h : Sim R m m') (hk : ∀ a, Sim R (k a) (k' a)) :
    Sim R (m >>= k) (m' >>= k') := fun p q hp => seq (h p q hp) fun a _ _ => hk a _ _ (h p q hp).2

omit [ParseBuf β] [ParseBuf γ] in
/-- A step that gives any value and leaves the parser alone, on either side. -/
theorem silent {δ δ' : Type} {m : P β δ} {m' : P γ δ'} {k : δ → P β α'} {k' : δ' → P γ α'} {p : Parser β} {q : Parser γ}
    {x : δ} {y : δ'} {l l' : List Nat} (h : m p = ⟨.ok x, p, l⟩) (h' : m' q = ⟨.ok y, q, l'⟩)
    (hk : (k x p).res = (k' y q).res ∧ SimP R (k x p).st (k' y q).st) :
    ((m >>= k) p).res = ((m' >>= k') q).res ∧ SimP R ((m >>= k) p).st ((m' >>= k') q).st := by
  rw [P.bind_ok h, P.bind_ok h']
  exact hk

omit [ParseBuf β] [ParseBuf γ] in
theorem config : Sim R (P.config : P β ParseConfig) P.config := fun _ _ h => ⟨congrArg Except.ok h.config, h⟩
omit [ParseBuf β] [ParseBuf γ] in
theorem offset : Sim R (P.offset : P β Nat) P.offset := fun _ _ h => ⟨congrArg Except.ok h.offset, h⟩

variable (S : BufSim R)
include S

theorem chunk : Sim R (P.chunk : P β Chunk) P.chunk := fun _ _ h =>
  ⟨(S.chunk _ _ h.buf).1, ⟨(S.chunk _ _ h.buf).2, h.offset, h.config⟩⟩

theorem chunkResult : Sim R (P.chunkResult : P β (Except ParseError Chunk)) P.chunkResult := by
  intro p q h
  have h1 := (S.chunk _ _ h.buf).1
  have h2 : SimP R { p with data := (ParseBuf.chunk p.data).2 } { q with data := (ParseBuf.chunk q.data).2 } :=
    ⟨(S.chunk _ _ h.buf).2, h.offset, h.config⟩
  have h3 : (ParseBuf.chunk p.data).1 = (ParseBuf.chunk q.data).1 := h1
  unfold P.chunkResult
  rw [← h3]
  rcases (ParseBuf.chunk p.data).1 with e | c
  · cases e <;> exact ⟨rfl, h2⟩
  · exact ⟨rfl, h2⟩

/-- What `advance` does on both sides. -/
theorem advance_cases {p : Parser β} {q : Parser γ} (h : SimP R p q) (n : Nat) :
    (P.advance n p = ⟨.error .panic, p, []⟩ ∧ P.advance n q = ⟨.error .panic, q, []⟩) ∨
    ∃ p' q', P.advance n p = ⟨.ok (), p', []⟩ ∧ P.advance n q = ⟨.ok (), q', []⟩ ∧ SimP R p' q' ∧
      ParseBuf.steps p'.data + n ≤ ParseBuf.steps p.data ∧ ParseBuf.steps q'.data + n ≤ ParseBuf.steps q.data := by
  rcases S.advance _ _ n h.buf with ⟨h1, h2⟩ | ⟨b', c', h1, h2, h3, h4, h5⟩
  · left
    have e1 : ParseBuf.advance p.data n = none := by
      show (ParseBuf.advance p.data.buf n).map _ = none; rw [h1]; rfl
    have e2 : ParseBuf.advance q.data n = none := by
      show (ParseBuf.advance q.data.buf n).map _ = none; rw [h2]; rfl
    unfold P.advance
    rw [e1, e2]
    exact ⟨rfl, rfl⟩
  · right
    have e1 : ParseBuf.advance p.data n = some ⟨b', p.data.offset + n⟩ := by
      show (ParseBuf.advance p.data.buf n).map _ = _; rw [h1]; rfl
    have e2 : ParseBuf.advance q.data n = some ⟨c', q.data.offset + n⟩ := by
      show (ParseBuf.advance q.data.buf n).map _ = _; rw [h2]; rfl
    refine ⟨{ p with data := ⟨b', p.data.offset + n⟩ }, { q with data := ⟨c', q.data.offset + n⟩ }, ?_, ?_,
      ⟨h3, by show p.data.offset + n = q.data.offset + n; rw [h.offset], h.config⟩, h4, h5⟩
    · unfold P.advance; rw [e1]
    · unfold P.advance; rw [e2]

theorem advance (n : Nat) : Sim R (P.advance n : P β Unit) (P.advance n) := by
  intro p q h
  rcases advance_cases S h n with ⟨h1, h2⟩ | ⟨p', q', h1, h2, h3, _⟩
  · rw [h1, h2]; exact ⟨rfl, h⟩
  · rw [h1, h2]; exact ⟨rfl, h3⟩

/-- One round of a reading loop: take the chunk, consume `g` of it, and go on. -/
theorem round {p : Parser β} {q : Parser γ} (h : SimP R p q) {g : Chunk → Nat} (hg : ∀ c : Chunk, c.data ≠ [] → 0 < g c)
    {k : Chunk → P β α} {k' : Chunk → P γ α} {n n' : Nat} (hn : ParseBuf.steps p.data < n + 1) (hn' : ParseBuf.steps q.data < n' + 1)
    (hk : ∀ c p' q', SimP R p' q' → ParseBuf.steps p'.data < n → ParseBuf.steps q'.data < n' →
      (k c p').res = (k' c q').res ∧ SimP R (k c p').st (k' c q').st) :
    ((P.chunk >>= fun c => P.advance (g c) >>= fun _ => k c) p).res =
      ((P.chunk >>= fun c => P.advance (g c) >>= fun _ => k' c) q).res ∧
    SimP R ((P.chunk >>= fun c => P.advance (g c) >>= fun _ => k c) p).st
      ((P.chunk >>= fun c => P.advance (g c) >>= fun _ => k' c) q).st := by
  refine seq (chunk S p q h) fun c hc _ => ?_
  obtain ⟨hs1, hs2⟩ := S.steps _ _ h.buf
  have hc0 := hg c (S.nonempty _ _ c h.buf hc)
  have e1 : ParseBuf.steps (P.chunk p).st.data ≤ ParseBuf.steps p.data := hs1
  have e2 : ParseBuf.steps (P.chunk q).st.data ≤ ParseBuf.steps q.data := hs2
  rcases advance_cases S (chunk S p q h).2 (g c) with ⟨h1, h2⟩ | ⟨p', q', h1, h2, h3, h4, h5⟩
  · rw [P.bind_err h1, P.bind_err h2]
    exact ⟨rfl, (chunk S p q h).2⟩
  · rw [P.bind_nil h1, P.bind_nil h2]
    exact hk c p' q' h3 (by omega) (by omega)

omit S [ParseBuf γ] in
theorem truncate_data (c : Chunk) (n : Nat) : (c.truncate n).data = c.data.take n := by
  unfold Chunk.truncate
  split
  · rename_i h; exact (List.take_of_length_le h).symm
  · rfl

omit S [ParseBuf γ] in
/-- The two byte loops are the same function. -/
theorem bytesSlowLoop_eq : ∀ (n len : Nat) (bs : List Byte), (P.bytesSlowLoop n len bs : P β (List Byte)) = P.toSliceLoop n len bs
  | 0, _, _ => rfl
  | n + 1, len, bs => by
    unfold P.bytesSlowLoop P.toSliceLoop
    split
    · rfl
    · congr 1
      funext c
      have h1 : (c.truncate len).data.length = min c.data.length len := by
        rw [truncate_data, List.length_take, Nat.min_comm]
      have h2 : (c.truncate len).data = c.data.take (min c.data.length len) := by
        rw [truncate_data, List.take_eq_take_iff]; omega
      simp only [bytesSlowLoop_eq n]
      rw [h1, h2]

theorem toSliceLoop : ∀ (n n' len : Nat) (bs : List Byte) (p : Parser β) (q : Parser γ), SimP R p q →
    ParseBuf.steps p.data < n → ParseBuf.steps q.data < n' →
    (P.toSliceLoop n len bs p).res = (P.toSliceLoop n' len bs q).res ∧
      SimP R (P.toSliceLoop n len bs p).st (P.toSliceLoop n' len bs q).st
  | 0, _, _, _, _, _, _, h, _ => absurd h (Nat.not_lt_zero _)
  | _ + 1, 0, _, _, _, _, _, _, h => absurd h (Nat.not_lt_zero _)
  | n + 1, n' + 1, len, bs, p, q, hp, h, h' => by
    unfold P.toSliceLoop
    by_cases h0 : len = 0
    · rw [P.ite_pos h0, P.ite_pos h0]; exact ⟨rfl, hp⟩
    · rw [P.ite_neg h0, P.ite_neg h0]
      refine round S hp (g := fun c => min c.data.length len) (fun c hc => ?_) h h'
        (k := fun c => P.toSliceLoop n (len - min c.data.length len) (bs ++ c.data.take (min c.data.length len)))
        (k' := fun c => P.toSliceLoop n' (len - min c.data.length len) (bs ++ c.data.take (min c.data.length len)))
        (fun c p' q' h1 h2 h3 => toSliceLoop n n' _ _ p' q' h1 h2 h3)
      have := List.length_pos_iff.mpr hc
      omega

theorem toSlice (len : Nat) : Sim R (P.toSlice len : P β (List Byte)) (P.toSlice len) := by
  intro p q h
  refine silent (m := P.fuel) (m' := P.fuel) rfl rfl ?_
  exact toSliceLoop S _ _ len [] p q h (Nat.lt_succ_self _) (Nat.lt_succ_self _)

theorem ignoredLoop : ∀ (n n' len : Nat) (p : Parser β) (q : Parser γ), SimP R p q →
    ParseBuf.steps p.data < n → ParseBuf.steps q.data < n' →
    (P.ignoredLoop n len p).res = (P.ignoredLoop n' len q).res ∧
      SimP R (P.ignoredLoop n len p).st (P.ignoredLoop n' len q).st
  | 0, _, _, _, _, _, h, _ => absurd h (Nat.not_lt_zero _)
  | _ + 1, 0, _, _, _, _, _, h => absurd h (Nat.not_lt_zero _)
  | n + 1, n' + 1, len, p, q, hp, h, h' => by
    unfold P.ignoredLoop
    by_cases h0 : len = 0
    · rw [P.ite_pos h0, P.ite_pos h0]; exact ⟨rfl, hp⟩
    · rw [P.ite_neg h0, P.ite_neg h0]
      refine round S hp (g := fun c => min c.data.length len) (fun c hc => ?_) h h'
        (k := fun c => P.ignoredLoop n (len - min c.data.length len))
        (k' := fun c => P.ignoredLoop n' (len - min c.data.length len))
        (fun c p' q' h1 h2 h3 => ignoredLoop n n' _ p' q' h1 h2 h3)
      have := List.length_pos_iff.mpr hc
      omega

theorem bytesIgnored (len : Nat) : Sim R (P.bytesIgnored len : P β Unit) (P.bytesIgnored len) := by
  intro p q h
  refine silent (m := P.fuel) (m' := P.fuel) rfl rfl ?_
  exact ignoredLoop S _ _ len p q h (Nat.lt_succ_self _) (Nat.lt_succ_self _)

omit S in
theorem safeCapacityBound_run (size : Nat) (p : Parser β) : ∃ x, P.safeCapacityBound size p = ⟨.ok x, p, []⟩ := by
  unfold P.safeCapacityBound
  by_cases h : size = 0
  · rw [P.ite_pos h]; exact ⟨_, rfl⟩
  · rw [P.ite_neg h]; exact ⟨_, rfl⟩

/-- Whichever way the hints send it, the copying path of `parse_bytes` reads the same. -/
theorem copied (len : Nat) : Sim R
    (do let h ← P.hint
        if P.hintAtLeast h len then do
          P.alloc len
          let bs ← P.toSlice len
          Pure.pure (Cow.owned bs)
        else do
          let bs ← P.bytesSlow len
          Pure.pure (Cow.owned bs) : P β (Cow Byte))
    (do let h ← P.hint
        if P.hintAtLeast h len then do
          P.alloc len
          let bs ← P.toSlice len
          Pure.pure (Cow.owned bs)
        else do
          let bs ← P.bytesSlow len
          Pure.pure (Cow.owned bs)) := by
  have key : ∀ {δ : Type} [ParseBuf δ] (p : Parser δ), ∃ l, (do
        let h ← P.hint
        if P.hintAtLeast h len then do
          P.alloc len
          let bs ← P.toSlice len
          Pure.pure (Cow.owned bs)
        else do
          let bs ← P.bytesSlow len
          Pure.pure (Cow.owned bs) : P δ (Cow Byte)) p =
      ⟨((P.toSlice len >>= fun bs => Pure.pure (Cow.owned bs) : P δ (Cow Byte)) p).res,
        ((P.toSlice len >>= fun bs => Pure.pure (Cow.owned bs) : P δ (Cow Byte)) p).st, l⟩ := by
    intro δ _ p
    have hh : (P.hint : P δ (Option Nat)) p = ⟨.ok (ParseBuf.hint p.data), p, []⟩ := rfl
    rw [P.bind_nil hh]
    by_cases hb : P.hintAtLeast (ParseBuf.hint p.data) len = true
    · rw [P.ite_pos hb, P.bind_ok (show (P.alloc len : P δ Unit) p = ⟨.ok (), p, [len]⟩ from rfl)]
      exact ⟨_, rfl⟩
    · rw [P.ite_neg hb]
      obtain ⟨l, e⟩ : ∃ l, (P.bytesSlow len : P δ (List Byte)) p = ⟨(P.toSlice len p).res, (P.toSlice len p).st, l⟩ := by
        unfold P.bytesSlow P.toSlice
        obtain ⟨x, hx⟩ := safeCapacityBound_run 1 p
        rw [P.bind_nil hx, P.bind_ok (show (P.alloc (min x len) : P δ Unit) p = ⟨.ok (), p, [min x len]⟩ from rfl),
          P.bind_nil (show (P.fuel : P δ Nat) p = ⟨.ok (ParseBuf.steps p.data + 1), p, []⟩ from rfl),
          P.bind_nil (show (P.fuel : P δ Nat) p = ⟨.ok (ParseBuf.steps p.data + 1), p, []⟩ from rfl), bytesSlowLoop_eq]
        exact ⟨_, rfl⟩
      rcases hr : (P.toSlice len p).res with er | bs
      · rw [hr] at e
        rw [P.bind_err e, P.bind_err (P.run_eq _ hr)]
        exact ⟨_, rfl⟩
      · rw [hr] at e
        rw [P.bind_ok e, P.bind_ok (P.run_eq _ hr)]
        exact ⟨_, rfl⟩
  intro p q h
  obtain ⟨l, h1⟩ := key p
  obtain ⟨l', h2⟩ := key q
  rw [h1, h2]
  exact bind (toSlice S len) (fun bs => pure _) p q h

theorem bytesDirect (len : Nat) : Sim R (P.bytesDirect len : P β (Option (Nat × List Byte))) (P.bytesDirect len) := by
  refine bind (chunk S) fun c => ?_
  rcases c with ⟨loc, d⟩
  cases loc with
  | temporary => exact pure _
  | external a =>
    show Sim R (if d.length < len then Pure.pure none else P.advance len >>= fun _ => Pure.pure (some (a, d.take len)) : P β _)
      (if d.length < len then Pure.pure none else P.advance len >>= fun _ => Pure.pure (some (a, d.take len)))
    split
    · exact pure _
    · exact bind (advance S len) fun _ => pure _

theorem bytes (len : Nat) : Sim R (P.bytes len : P β (Cow Byte)) (P.bytes len) := by
  refine bind (bytesDirect S len) fun r => ?_
  rcases r with - | ⟨a, bs⟩
  · exact copied S len
  · exact pure _

theorem array (n : Nat) : Sim R (P.array n : P β (List Byte)) (P.array n) := by
  refine bind (chunk S) fun c => ?_
  split
  · exact toSlice S n
  · exact bind (advance S n) fun _ => pure _

theorem padded {m : P β α} {m' : P γ α} (n : Nat) (h : Sim R m m') : Sim R (P.padded n m) (P.padded n m') := by
  unfold P.padded
  split
  · exact fault _
  · refine bind offset fun a => bind h fun v => bind offset fun b => ?_
    dsimp only
    split
    · exact pure _
    · exact bind (bytesIgnored S _) fun _ => pure _

omit S [ParseBuf β] [ParseBuf γ] in
theorem toCow_run (c : Chunk) (p : Parser β) : ∃ l, P.toCow c p = ⟨.ok c.toCow, p, l⟩ := by
  unfold P.toCow
  rcases c with ⟨loc, d⟩
  cases loc with
  | temporary => exact ⟨_, rfl⟩
  | external a => exact ⟨_, rfl⟩

theorem restLoop : ∀ (n n' : Nat) (bs : Cow Byte) (p : Parser β) (q : Parser γ), SimP R p q →
    ParseBuf.steps p.data < n → ParseBuf.steps q.data < n' →
    (P.restLoop n bs p).res = (P.restLoop n' bs q).res ∧ SimP R (P.restLoop n bs p).st (P.restLoop n' bs q).st
  | 0, _, _, _, _, _, h, _ => absurd h (Nat.not_lt_zero _)
  | _ + 1, 0, _, _, _, _, _, h => absurd h (Nat.not_lt_zero _)
  | n + 1, n' + 1, bs, p, q, hp, h, h' => by
    unfold P.restLoop
    refine seq (chunkResult S p q hp) fun c hc hc' => ?_
    have hS := (chunkResult S p q hp).2
    cases c with
    | error e =>
      dsimp only
      by_cases he : e.kind = .eof
      · rw [P.ite_pos he, P.ite_pos he]; exact ⟨rfl, hS⟩
      · rw [P.ite_neg he, P.ite_neg he]; exact ⟨rfl, hS⟩
    | ok c =>
      have hc1 : (ParseBuf.chunk p.data.buf).1 = .ok c := by
        have : (P.chunkResult p).res = .ok (.ok c) := hc
        unfold P.chunkResult at this
        have e : (ParseBuf.chunk p.data).1 = (ParseBuf.chunk p.data.buf).1 := rfl
        rcases hx : (ParseBuf.chunk p.data).1 with f | c'
        · rw [hx] at this
          cases f <;> cases this
        · rw [hx] at this
          cases this
          rfl
      have hst : ∀ {δ : Type} [ParseBuf δ] (p : Parser δ), (P.chunkResult p).st = { p with data := (ParseBuf.chunk p.data).2 } := by
        intro δ _ p
        unfold P.chunkResult
        rcases (ParseBuf.chunk p.data).1 with f | c
        · cases f <;> rfl
        · rfl
      have hc0 := List.length_pos_iff.mpr (S.nonempty _ _ c hp.buf hc1)
      obtain ⟨hs1, hs2⟩ := S.steps _ _ hp.buf
      have e1 : ParseBuf.steps (P.chunkResult p).st.data ≤ ParseBuf.steps p.data := by rw [hst]; exact hs1
      have e2 : ParseBuf.steps (P.chunkResult q).st.data ≤ ParseBuf.steps q.data := by rw [hst]; exact hs2
      dsimp only
      rcases advance_cases S hS c.data.length with ⟨h1, h2⟩ | ⟨p', q', h1, h2, h3, h4, h5⟩
      · rw [P.bind_err h1, P.bind_err h2]
        exact ⟨rfl, hS⟩
      · rw [P.bind_nil h1, P.bind_nil h2]
        exact restLoop n n' _ p' q' h3 (by omega) (by omega)

theorem rest : Sim R (P.rest : P β (Cow Byte)) P.rest := by
  refine bind (chunk S) fun c p q h => ?_
  obtain ⟨l, h1⟩ := toCow_run c p
  obtain ⟨l', h2⟩ := toCow_run c q
  refine silent h1 h2 ?_
  refine seq (advance S _ p q h) fun _ _ _ => ?_
  refine silent (m := P.fuel) (m' := P.fuel) rfl rfl ?_
  exact restLoop S _ _ _ _ _ (advance S _ p q h).2 (Nat.lt_succ_self _) (Nat.lt_succ_self _)

omit S [ParseBuf β] [ParseBuf γ] in
theorem repeatedLoop {m : P β T} {m' : P γ T} (h : Sim R m m') : ∀ n, Sim R (P.repeatedLoop m n) (P.repeatedLoop m' n)
  | 0 => pure _
  | n + 1 => bind h fun _ => bind (repeatedLoop h n) fun _ => pure _

omit S in
theorem repeated {m : P β T} {m' : P γ T} (size : Nat) (h : Sim R m m') (n : Nat) :
    Sim R (P.repeated size m n) (P.repeated size m' n) := by
  intro p q hp
  obtain ⟨x, hx⟩ := safeCapacityBound_run size p
  obtain ⟨y, hy⟩ := safeCapacityBound_run size q
  refine silent hx hy ?_
  refine silent (m := P.alloc _) (m' := P.alloc _) rfl rfl ?_
  exact repeatedLoop h n p q hp

theorem sliceDirect (e : Elem T) (len : Nat) : Sim R (P.sliceDirect e len : P β (Option (List T))) (P.sliceDirect e len) := by
  refine bind config fun cfg => ?_
  split
  · exact pure _
  · split
    · exact fault _
    · refine bind (bytesDirect S _) fun r => ?_
      rcases r with - | ⟨a, bs⟩
      · exact pure _
      · dsimp only
        split
        · exact pure _
        · exact pure _

theorem slice {m : P β T} {m' : P γ T} (e : Elem T) (len : Nat) (h : Sim R m m') :
    Sim R (P.slice e m len) (P.slice e m' len) := by
  refine bind (sliceDirect S e len) fun r => ?_
  cases r with
  | none => exact bind (repeated e.size h len) fun _ => pure _
  | some x => exact pure _

theorem closed : Closed (fun {α} (m : P β α) (m' : P γ α) => Sim R m m') where
  pure := pure
  bind := bind
  fault e _ := fault e
  config := config
  array := array S
  bytes := bytes S
  rest := rest S
  padded := padded S
  slice e n h := slice S e n h

end Sim

/-- Related buffers stay related under `TrackingParseBuf`. -/
def SimTrack (R : β → γ → Prop) (t : Tracking β) (u : Tracking γ) : Prop := R t.buf u.buf ∧ t.offset = u.offset

theorem BufSim.tracking {R : β → γ → Prop} (S : BufSim R) : BufSim (SimTrack R) where
  chunk t u h := ⟨(S.chunk _ _ h.1).1, (S.chunk _ _ h.1).2, h.2⟩
  nonempty t u x h hx := S.nonempty _ _ x h.1 hx
  steps t u h := S.steps _ _ h.1
  advance t u n h := by
    show ((ParseBuf.advance t.buf n).map _ = none ∧ (ParseBuf.advance u.buf n).map _ = none) ∨ ∃ b' c',
      (ParseBuf.advance t.buf n).map _ = some b' ∧ (ParseBuf.advance u.buf n).map _ = some c' ∧ _
    rcases S.advance _ _ n h.1 with ⟨h1, h2⟩ | ⟨b', c', h1, h2, h3, h4, h5⟩
    · rw [h1, h2]; exact .inl ⟨rfl, rfl⟩
    · rw [h1, h2]
      exact .inr ⟨⟨b', t.offset + n⟩, ⟨c', u.offset + n⟩, rfl, rfl, ⟨h3, by show t.offset + n = u.offset + n; rw [h.2]⟩, h4, h5⟩

/-! ## The contiguous fast path -/

/-- A slice and a cursor over that slice as its only piece. The hint of the cursor may be too large (B1). -/
def SliceCursor (s : Slice) (c : Cursor) : Prop :=
  (s.data = [] ∧ c.chunks = [] ∧ c.offset = 0) ∨
  ∃ a d, c.chunks = [⟨.external a, d⟩] ∧ c.offset < d.length ∧ s.addr = a + c.offset ∧ s.data = d.drop c.offset ∧
    d.length - c.offset ≤ c.len ∧ d.length < usizeLimit

theorem SliceCursor.sim : BufSim SliceCursor where
  chunk s c h := by
    rcases h with ⟨h1, h2, h3⟩ | ⟨a, d, h1, h2, h3, h4, h5, h6⟩
    · constructor
      · show (if s.data = [] then _ else _) = c.chunk
        rw [if_pos h1]; unfold Cursor.chunk; rw [h2]
      · exact .inl ⟨h1, h2, h3⟩
    · constructor
      · show (if s.data = [] then _ else _) = c.chunk
        rw [if_neg (by rw [h4]; intro h; have := congrArg List.length h; simp at this; omega)]
        unfold Cursor.chunk
        rw [h1]
        simp only
        rw [if_pos (by omega), h3, h4]
      · exact .inr ⟨a, d, h1, h2, h3, h4, h5, h6⟩
  nonempty s c x h hx := by
    have hx' : (if s.data = [] then .error (.err .eof) else .ok ⟨.external s.addr, s.data⟩ : Except Fault Chunk) = .ok x := hx
    split at hx'
    · cases hx'
    · cases hx'; assumption
  steps s c h := ⟨Nat.le_refl _, Nat.le_refl _⟩
  advance s c n h := by
    show ((if n ≤ s.data.length then some (⟨s.addr + n, s.data.drop n⟩ : Slice) else none) = none ∧ c.advance n = none) ∨
      ∃ b' c', (if n ≤ s.data.length then some (⟨s.addr + n, s.data.drop n⟩ : Slice) else none) = some b' ∧ c.advance n = some c' ∧
        SliceCursor b' c' ∧ b'.data.length + n ≤ s.data.length ∧
        (chunkBytes c'.chunks - c'.offset) + n ≤ chunkBytes c.chunks - c.offset
    unfold Cursor.advance
    rcases h with ⟨h1, h2, h3⟩ | ⟨a, d, h1, h2, h3, h4, h5, h6⟩
    · rcases Nat.eq_zero_or_pos n with h0 | h0
      · right
        subst h0
        refine ⟨⟨s.addr, []⟩, { c with chunks := [] }, ?_, ?_, .inl ⟨rfl, rfl, h3⟩, Nat.zero_le _, ?_⟩
        · rw [h1]; rfl
        · rw [if_neg (by rw [h3]; unfold usizeLimit; omega), if_neg (by omega)]
          simp only [h2, Cursor.advanceSlow, Cursor.slowLoop, h3]; rfl
        · simp [chunkBytes]
      · left
        constructor
        · rw [if_neg (by rw [h1]; simp; omega)]
        · split
          · rfl
          · split
            · rfl
            · simp only [h2, Cursor.advanceSlow, Cursor.slowLoop, h3]
              rw [if_neg (by omega)]
    · have hl : s.data.length = d.length - c.offset := by rw [h4]; simp
      rcases Nat.lt_or_ge s.data.length n with hn | hn
      · left
        constructor
        · rw [if_neg (by omega)]
        · split
          · rfl
          · split
            · rfl
            · simp only [h1]
              rw [if_neg (by show ¬ d.length > c.offset + n; omega)]
              unfold Cursor.advanceSlow
              simp only [Cursor.slowLoop, if_neg (show ¬ c.offset + n < d.length by omega)]
              rw [if_neg (by omega)]
      · right
        rw [if_pos hn, if_neg (by omega), if_neg (by omega)]
        simp only [h1]
        by_cases hend : d.length > c.offset + n
        · rw [if_pos hend]
          refine ⟨_, _, rfl, rfl, .inr ⟨a, d, rfl, hend, ?_, ?_, ?_, h6⟩, ?_, ?_⟩
          · show s.addr + n = a + (c.offset + n); omega
          · show s.data.drop n = d.drop (c.offset + n); rw [h4, List.drop_drop]
          · show d.length - (c.offset + n) ≤ c.len; omega
          · simp; omega
          · simp [chunkBytes]; omega
        · rw [if_neg hend]
          unfold Cursor.advanceSlow
          simp only [Cursor.slowLoop, if_neg (show ¬ c.offset + n < d.length by omega)]
          rw [if_pos (by omega)]
          refine ⟨_, _, rfl, rfl, .inl ⟨?_, rfl, ?_⟩, ?_, ?_⟩
          · show s.data.drop n = []; rw [h4, List.drop_drop]; exact List.drop_of_length_le (by omega)
          · show c.offset + n - d.length = 0; omega
          · simp; omega
          · simp [chunkBytes]; omega

/-- The two parsers `parse_record_with_header` chooses between give the same result. -/
theorem P.recordImpl_fast {β O : Type} {c : Parser Cursor} {s : Slice} (hs : c.data.buf.asSlice = some s) (h0 : c.data.buf.offset = 0)
    (hz : c.data.offset = 0) (hl : s.data.length ≤ c.data.buf.len) (hu : s.data.length < usizeLimit) (hne : s.data ≠ [])
    (v : Visitor Cow O) (md : Metadata) (st : Parser β) :
    (P.recordImpl (Parser.new s c.config) v md st).res = (P.recordImpl c v md st).res := by
  have hrel : SliceCursor s c.data.buf := by
    unfold Cursor.asSlice at hs
    split at hs
    · rename_i a d hc
      cases hs
      exact .inr ⟨a, d, hc, by rw [h0]; exact List.length_pos_iff.mpr hne, by rw [h0]; rfl, by rw [h0]; rfl, by rw [h0]; exact hl, hu⟩
    · cases hs
  have hp : SimP (SimTrack SliceCursor) (Parser.new (Parser.new s c.config).data (c.config.withMisc md.misc))
      (Parser.new c.data (c.config.withMisc md.misc)) := ⟨⟨hrel, hz.symm⟩, rfl, rfl⟩
  have h := Sim.closed SliceCursor.sim.tracking |>.body md.ty
  have h1 := (h _ _ hp).1
  have e : ∀ {γ : Type} [ParseBuf γ] (q : Parser γ), (P.recordImpl q v md st).res =
      match ((parseBody md.ty : P (Tracking γ) (Record Cow)) (Parser.new q.data (q.config.withMisc md.misc))).res with
      | .ok r => v.apply r md
      | .error e => .error e := by
    intro γ _ q
    unfold P.recordImpl
    rw [P.dispatch_eq]
    rcases hb : ((parseBody md.ty : P (Tracking γ) (Record Cow)) (Parser.new q.data (q.config.withMisc md.misc))).res with e | r
    · rw [P.bind_err (P.onChild_err (P.bind_err (P.run_eq _ hb)) st)]
    · have h1 := P.bind_ok (k := fun r => (P.ofExcept (v.apply r md) : P (Tracking γ) O)) (P.run_eq _ hb)
      simp only [P.ofExcept] at h1
      rcases hv : v.apply r md with e | o <;> rw [hv] at h1
      · rw [P.bind_err (P.onChild_err h1 st)]
        simp only [hv]
      · rw [P.bind_ok (P.onChild_ok h1 st)]
        simp only [hv]
        rfl
  rw [e, e]
  have h2 : ((parseBody md.ty : P (Tracking Slice) (Record Cow))
      (Parser.new (Parser.new s c.config).data ((Parser.new s c.config).config.withMisc md.misc))).res =
    ((parseBody md.ty : P (Tracking Cursor) (Record Cow)) (Parser.new c.data (c.config.withMisc md.misc))).res := h1
  rw [h2]

end Perf
