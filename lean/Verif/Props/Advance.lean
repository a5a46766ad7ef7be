import Verif.Props.Fast
import Verif.Props.User
/-!
# C106: looking at a buffer and advancing it, in any order and by any counts

The parser only advances a buffer by at most what it has just been shown. `ParseBuf` is a public trait, however, and its documentation says of
`advance` "Advance this buffer past `count` bytes" without such a condition (src/parsebuf.rs:98-99). Here any calls are made directly on the crate's
buffers: `chunk`, `advance` by any count, `remaining_hint`, in any order.
-/
namespace Perf

/-- A call on a buffer. -/
inductive BufCall where
  | look
  | move (n : Nat)
  | left

/-- What the caller sees. -/
inductive Seen where
  | chunk (c : Chunk)
  | fails (e : ParseError)
  | moved
  | hint (n : Option Nat)
  | panics
deriving DecidableEq, Repr

/-- What the caller sees call by call; a panic is the last thing. -/
def watch {β : Type} [ParseBuf β] : List BufCall → β → List Seen
  | [], _ => []
  | .look :: cs, b => match ParseBuf.chunk b with
    | (.ok c, b') => .chunk c :: watch cs b'
    | (.error (.err e), b') => .fails e :: watch cs b'
    | (.error _, _) => [.panics]
  | .move n :: cs, b => match ParseBuf.advance b n with
    | some b' => .moved :: watch cs b'
    | none => [.panics]
  | .left :: cs, b => .hint (ParseBuf.hint b) :: watch cs b

/-! ## The specification: pieces that do not change, and a position -/

/-- What is left of the piece in which the byte number `k` is. -/
def pieceAt : List Chunk → Nat → Option Chunk
  | [], _ => none
  | c :: cs, k =>
    if k < c.data.length then some ⟨match c.loc with
      | .external a => .external (a + k)
      | .temporary => .temporary, c.data.drop k⟩
    else pieceAt cs (k - c.data.length)

/-- The pieces `ps` are read from the position `k`; `hint` is told of the position. -/
def overPieces (ps : List Chunk) (hint : Nat → Option Nat) : List BufCall → Nat → List Seen
  | [], _ => []
  | .look :: cs, k => (match pieceAt ps k with
    | some c => .chunk c
    | none => .fails .eof) :: overPieces ps hint cs k
  | .move n :: cs, k => if k + n ≤ (chunksData ps).length then .moved :: overPieces ps hint cs (k + n) else [.panics]
  | .left :: cs, k => .hint (hint k) :: overPieces ps hint cs k

/-- What is shown at a position is not empty and is what follows there; nothing is shown at the end only. -/
theorem c106_look (ps : List Chunk) (k : Nat) :
    (∀ c, pieceAt ps k = some c → c.data ≠ [] ∧ c.data <+: (chunksData ps).drop k) ∧
    (pieceAt ps k = none ↔ (chunksData ps).length ≤ k) := by
  induction ps generalizing k with
  | nil => exact ⟨nofun, by simp [pieceAt, chunksData]⟩
  | cons d ds ih =>
    have e : chunksData (d :: ds) = d.data ++ chunksData ds := rfl
    rw [e]
    unfold pieceAt
    by_cases h : k < d.data.length
    · rw [if_pos h]
      refine ⟨fun c hc => ?_, ?_⟩
      · cases hc
        refine ⟨fun h0 => ?_, ?_⟩
        · have := congrArg List.length h0
          rw [List.length_drop] at this
          exact absurd this (by simp; omega)
        · rw [List.drop_append_of_le_length (by omega)]
          exact List.prefix_append _ _
      · simp only [List.length_append]
        exact ⟨nofun, fun h1 => by omega⟩
    · rw [if_neg h]
      have h1 := ih (k - d.data.length)
      refine ⟨fun c hc => ?_, ?_⟩
      · have h2 := h1.1 c hc
        rw [List.drop_append, List.drop_eq_nil_of_le (by omega), List.nil_append]
        exact h2
      · rw [h1.2, List.length_append]
        omega

/-! ## The cursor over the body of a record -/

/-- The cursor `c` is at the position `k` of the pieces `ps`. -/
structure CursorAt (ps : List Chunk) (c : Cursor) (k : Nat) : Prop where
  back : ∃ gone, ps = gone ++ c.chunks ∧ (chunksData gone).length + c.offset = k
  inside : match c.chunks with
    | [] => c.offset = 0
    | d :: _ => c.offset < d.data.length
  len : c.len = (chunksData ps).length

theorem pieceAt_gone (gone cs : List Chunk) (k : Nat) : pieceAt (gone ++ cs) ((chunksData gone).length + k) = pieceAt cs k := by
  induction gone with
  | nil => simp [chunksData]
  | cons g gs ih =>
    have e : chunksData (g :: gs) = g.data ++ chunksData gs := rfl
    rw [← ih, e, List.length_append]
    show pieceAt (g :: (gs ++ cs)) (g.data.length + (chunksData gs).length + k) = _
    rw [pieceAt, if_neg (by omega), show g.data.length + (chunksData gs).length + k - g.data.length = (chunksData gs).length + k by omega]

theorem slowLoop_at (cs : List Chunk) (off : Nat) : ∃ gone, cs = gone ++ (Cursor.slowLoop cs off).1 ∧
    (chunksData gone).length + (Cursor.slowLoop cs off).2 = off ∧
    match (Cursor.slowLoop cs off).1 with
    | [] => True
    | d :: _ => (Cursor.slowLoop cs off).2 < d.data.length := by
  induction cs generalizing off with
  | nil => exact ⟨[], rfl, by simp [chunksData, Cursor.slowLoop], trivial⟩
  | cons c cs ih =>
    unfold Cursor.slowLoop
    by_cases h : off < c.data.length
    · rw [if_pos h]
      exact ⟨[], rfl, by simp [chunksData], h⟩
    · rw [if_neg h]
      obtain ⟨g, h1, h2, h3⟩ := ih (off - c.data.length)
      refine ⟨c :: g, congrArg (c :: ·) h1, ?_, h3⟩
      have e : chunksData (c :: g) = c.data ++ chunksData g := rfl
      rw [e, List.length_append]
      omega

theorem CursorAt.advance {ps : List Chunk} {c : Cursor} {k n : Nat} (h : CursorAt ps c k) (hl : (chunksData ps).length < usizeLimit) :
    if k + n ≤ (chunksData ps).length then ∃ c', c.advance n = some c' ∧ CursorAt ps c' (k + n) else c.advance n = none := by
  obtain ⟨⟨gone, h1, h2⟩, h3, h4⟩ := h
  have hsum : (chunksData ps).length = (chunksData gone).length + (chunksData c.chunks).length := by
    rw [h1, chunksData_append, List.length_append]
  obtain ⟨g, s1, s2, s3⟩ := slowLoop_at c.chunks (c.offset + n)
  have slow : if k + n ≤ (chunksData ps).length then ∃ c', ({ c with offset := c.offset + n } : Cursor).advanceSlow = some c' ∧ CursorAt ps c' (k + n)
      else ({ c with offset := c.offset + n } : Cursor).advanceSlow = none := by
    unfold Cursor.advanceSlow
    dsimp only
    rcases hx : Cursor.slowLoop c.chunks (c.offset + n) with ⟨ds, off⟩
    rw [hx] at s1 s2 s3
    dsimp only at s1 s2 s3
    have hg : (chunksData c.chunks).length = (chunksData g).length + (chunksData ds).length := by
      rw [s1, chunksData_append, List.length_append]
    have hb : ps = (gone ++ g) ++ ds := by rw [List.append_assoc, ← s1]; exact h1
    cases ds with
    | nil =>
      have h0 : (chunksData ([] : List Chunk)).length = 0 := rfl
      dsimp only
      by_cases hz : off = 0
      · rw [if_pos (by omega), if_pos hz]
        refine ⟨_, rfl, ⟨gone ++ g, hb, ?_⟩, hz, h4⟩
        rw [chunksData_append, List.length_append]
        dsimp only
        omega
      · rw [if_neg (by omega), if_neg hz]
    | cons d ds =>
      have h0 : (chunksData (d :: ds)).length = d.data.length + (chunksData ds).length := List.length_append
      have s3 : off < d.data.length := s3
      rw [if_pos (by omega)]
      refine ⟨_, rfl, ⟨gone ++ g, hb, ?_⟩, s3, h4⟩
      rw [chunksData_append, List.length_append]
      dsimp only
      omega
  by_cases hin : k + n ≤ (chunksData ps).length
  · rw [if_pos hin] at slow ⊢
    unfold Cursor.advance
    rw [if_neg (by omega), if_neg (by omega)]
    dsimp only
    rcases hc : c.chunks with _ | ⟨d, ds⟩
    · rw [hc] at slow
      exact slow
    · dsimp only
      rw [hc] at slow
      split
      case isTrue hd => exact ⟨_, rfl, ⟨gone, by rw [h1, hc], by dsimp only; omega⟩, hd, h4⟩
      case isFalse => exact slow
  · rw [if_neg hin] at slow ⊢
    unfold Cursor.advance
    split
    · rfl
    · split
      · rfl
      · dsimp only
        rcases hc : c.chunks with _ | ⟨d, ds⟩
        · rw [hc] at slow
          exact slow
        · dsimp only
          rw [hc] at slow
          split
          case isTrue hd =>
            have h0 : (chunksData c.chunks).length = d.data.length + (chunksData ds).length := by rw [hc]; exact List.length_append
            omega
          case isFalse => exact slow

theorem CursorAt.chunk {ps : List Chunk} {c : Cursor} {k : Nat} (h : CursorAt ps c k) :
    c.chunk = match pieceAt ps k with
      | some d => .ok d
      | none => .error (.err .eof) := by
  obtain ⟨⟨gone, h1, h2⟩, h3, _⟩ := h
  rw [h1, ← h2, pieceAt_gone]
  unfold Cursor.chunk
  rcases hc : c.chunks with _ | ⟨d, ds⟩
  · rfl
  · rw [hc] at h3
    have h3 : c.offset < d.data.length := h3
    unfold pieceAt
    dsimp only
    rw [if_pos h3, if_pos (by omega)]
    rfl

/-- **C106** The cursor over the body of a record, from the pieces it was made of: any calls see the pieces from the position reached, and advancing past
the end panics. Its hint is not told of the position. -/
theorem c106_cursor (ps : List Chunk) (hne : ∀ d ∈ ps, d.data ≠ []) (hl : (chunksData ps).length < usizeLimit) (calls : List BufCall) :
    watch calls (⟨ps, 0, (chunksData ps).length⟩ : Cursor) = overPieces ps (fun _ => some (chunksData ps).length) calls 0 := by
  have main : ∀ (calls : List BufCall) (c : Cursor) (k : Nat), CursorAt ps c k →
      watch calls c = overPieces ps (fun _ => some (chunksData ps).length) calls k := by
    intro calls
    induction calls with
    | nil => exact fun _ _ _ => rfl
    | cons x xs ih =>
      intro c k hc
      cases x with
      | look =>
        unfold watch overPieces
        have e : ParseBuf.chunk c = (c.chunk, c) := rfl
        rw [e, hc.chunk]
        cases pieceAt ps k with
        | none => exact congrArg _ (ih c k hc)
        | some d => exact congrArg _ (ih c k hc)
      | move n =>
        unfold watch overPieces
        have h1 := hc.advance (n := n) hl
        have e : ParseBuf.advance c n = c.advance n := rfl
        rw [e]
        split at h1
        case isTrue hk =>
          obtain ⟨c', h2, h3⟩ := h1
          rw [h2, if_pos hk]
          exact congrArg _ (ih c' _ h3)
        case isFalse hk => rw [h1, if_neg hk]
      | left =>
        unfold watch overPieces
        have e : ParseBuf.hint c = some c.len := rfl
        rw [e, hc.len]
        exact congrArg _ (ih c k hc)
  refine main calls _ 0 ⟨⟨[], rfl, rfl⟩, ?_, rfl⟩
  cases ps with
  | nil => rfl
  | cons d ds => exact List.length_pos_iff.mpr (hne d List.mem_cons_self)

/-- **C106** `&[u8]`: one piece, and the hint is what is left. -/
theorem c106_slice (a : Nat) (bs : List Byte) (calls : List BufCall) :
    watch calls (⟨a, bs⟩ : Slice) = overPieces [⟨.external a, bs⟩] (fun k => some (bs.length - k)) calls 0 := by
  have hd : chunksData [⟨.external a, bs⟩] = bs := List.append_nil bs
  have main : ∀ (calls : List BufCall) (k : Nat), k ≤ bs.length →
      watch calls (⟨a + k, bs.drop k⟩ : Slice) = overPieces [⟨.external a, bs⟩] (fun k => some (bs.length - k)) calls k := by
    intro calls
    induction calls with
    | nil => exact fun _ _ => rfl
    | cons x xs ih =>
      intro k hk
      cases x with
      | look =>
        unfold watch overPieces
        have e : ParseBuf.chunk (⟨a + k, bs.drop k⟩ : Slice) =
          (if bs.drop k = [] then .error (.err .eof) else .ok ⟨.external (a + k), bs.drop k⟩, ⟨a + k, bs.drop k⟩) := rfl
        rw [e]
        unfold pieceAt
        by_cases h : k < bs.length
        · rw [if_neg (fun h0 => by rw [List.drop_eq_nil_iff] at h0; omega), if_pos h]
          exact congrArg _ (ih k hk)
        · rw [if_pos (List.drop_eq_nil_of_le (by omega)), if_neg h]
          exact congrArg _ (ih k hk)
      | move n =>
        unfold watch overPieces
        have e : ParseBuf.advance (⟨a + k, bs.drop k⟩ : Slice) n =
          if n ≤ (bs.drop k).length then some ⟨a + k + n, (bs.drop k).drop n⟩ else none := rfl
        rw [e, hd, List.length_drop, List.drop_drop, Nat.add_assoc]
        by_cases h : k + n ≤ bs.length
        · rw [if_pos (by omega), if_pos h]
          exact congrArg _ (ih (k + n) h)
        · rw [if_neg (by omega), if_neg h]
      | left =>
        unfold watch overPieces
        have e : ParseBuf.hint (⟨a + k, bs.drop k⟩ : Slice) = some (bs.drop k).length := rfl
        rw [e, List.length_drop]
        exact congrArg _ (ih k hk)
  exact main calls 0 (Nat.zero_le _)

/-! ## `BufReader` -/

/-- **C106** `BufReader` does not advance past what it has shown: what is asked for beyond it is dropped without notice. -/
theorem c106_reader (r : BufReader) (c : Chunk) (h : watch [.look] r = [.chunk c]) (n : Nat) (hn : c.data.length ≤ n) (calls : List BufCall) :
    watch (.look :: .move n :: calls) r = watch (.look :: .move c.data.length :: calls) r := by
  rcases r with ⟨buf, script⟩
  have go : ∀ (b : Byte) (bs : List Byte) (es : List ReadEvent), c.data.length = (b :: bs).length →
      watch (.move n :: calls) (⟨b :: bs, es⟩ : BufReader) = watch (.move c.data.length :: calls) (⟨b :: bs, es⟩ : BufReader) := by
    intro b bs es hc
    show Seen.moved :: watch calls (⟨(b :: bs).drop n, es⟩ : BufReader) = Seen.moved :: watch calls (⟨(b :: bs).drop c.data.length, es⟩ : BufReader)
    rw [List.drop_eq_nil_of_le (by omega), List.drop_eq_nil_of_le (by omega)]
  rcases buf with _ | ⟨b, bs⟩
  · rcases script with _ | ⟨_ | e, es⟩
    · cases h
    · rename_i bs
      rcases bs with _ | ⟨b, bs⟩
      · cases h
      · have h1 : Seen.chunk ⟨.temporary, b :: bs⟩ = .chunk c := (List.cons.inj h).1
        exact congrArg (Seen.chunk ⟨.temporary, b :: bs⟩ :: ·) (go b bs es (by cases h1; rfl))
    · cases h
  · have h1 : Seen.chunk ⟨.temporary, b :: bs⟩ = .chunk c := (List.cons.inj h).1
    exact congrArg (Seen.chunk ⟨.temporary, b :: bs⟩ :: ·) (go b bs script (by cases h1; rfl))

/-- **C106** A `BufReader` that has shown nothing does not advance at all. -/
theorem c106_reader_unseen (script : List ReadEvent) (n : Nat) (calls : List BufCall) :
    watch (.move n :: calls) (⟨[], script⟩ : BufReader) = .moved :: watch calls (⟨[], script⟩ : BufReader) := by
  show Seen.moved :: watch calls (⟨([] : List Byte).drop n, script⟩ : BufReader) = _
  rw [List.drop_nil]

/-- Every advance stays within what `chunk` has shown since, `s` bytes of which are left. -/
def StaysWithin (ps : List Chunk) : List BufCall → Nat → Nat → Prop
  | [], _, _ => True
  | .look :: cs, k, _ => StaysWithin ps cs k (match pieceAt ps k with
    | some c => c.data.length
    | none => 0)
  | .move n :: cs, k, s => n ≤ s ∧ StaysWithin ps cs (k + n) (s - n)
  | .left :: cs, k, s => StaysWithin ps cs k s

/-- **C106** As long as every advance stays within what has been shown, `BufReader` is a buffer over the pieces it reads, without a hint. -/
theorem c106_reader_within (ps : List Chunk) (hps : ∀ d ∈ ps, d.data ≠ [] ∧ d.loc = .temporary) (calls : List BufCall) (hc : StaysWithin ps calls 0 0) :
    watch calls (⟨[], ps.map fun d => .data d.data⟩ : BufReader) = overPieces ps (fun _ => none) calls 0 := by
  have main : ∀ (calls : List BufCall) (gone : List Chunk) (d : Chunk) (rest : List Chunk) (o s : Nat), ps = gone ++ d :: rest → o ≤ d.data.length →
      s ≤ d.data.length - o → StaysWithin ps calls ((chunksData gone).length + o) s →
      watch calls (⟨d.data.drop o, rest.map fun d => .data d.data⟩ : BufReader) = overPieces ps (fun _ => none) calls ((chunksData gone).length + o) := by
    intro calls
    induction calls with
    | nil => exact fun _ _ _ _ _ _ _ _ _ => rfl
    | cons x xs ih =>
      intro gone d rest o s h1 h2 h3 hw
      have hle : (chunksData gone).length + d.data.length ≤ (chunksData ps).length := by
        rw [h1, chunksData_append, List.length_append]
        have : (chunksData (d :: rest)).length = d.data.length + (chunksData rest).length := List.length_append
        omega
      have hloc := (hps d (by rw [h1]; simp)).2
      cases x with
      | look =>
        have hat : pieceAt ps ((chunksData gone).length + o) = pieceAt (d :: rest) o := by rw [h1]; exact pieceAt_gone gone (d :: rest) o
        have hw : StaysWithin ps xs ((chunksData gone).length + o) (match pieceAt ps ((chunksData gone).length + o) with
          | some c => c.data.length
          | none => 0) := hw
        show _ = (match pieceAt ps ((chunksData gone).length + o) with
          | some c => Seen.chunk c
          | none => .fails .eof) :: overPieces ps (fun _ => none) xs ((chunksData gone).length + o)
        rw [hat] at hw ⊢
        by_cases ho : o < d.data.length
        · rw [pieceAt, if_pos ho, hloc] at hw ⊢
          rcases hb : d.data.drop o with _ | ⟨b, bs⟩
          · rw [List.drop_eq_nil_iff] at hb; omega
          · have h4 := ih gone d rest o (d.data.length - o) h1 h2 (Nat.le_refl _) (by rw [← List.length_drop]; exact hw)
            rw [hb] at h4
            exact congrArg (Seen.chunk ⟨.temporary, b :: bs⟩ :: ·) h4
        · have ho : o = d.data.length := by omega
          rw [pieceAt, if_neg (by omega), show o - d.data.length = 0 by omega] at hw ⊢
          rw [List.drop_eq_nil_of_le (by omega)]
          cases rest with
          | nil =>
            have h4 := ih gone d [] o 0 h1 h2 (Nat.zero_le _) hw
            rw [List.drop_eq_nil_of_le (by omega)] at h4
            exact congrArg (Seen.fails .eof :: ·) h4
          | cons d' rest =>
            have hd' := hps d' (by rw [h1]; simp)
            have hpos : 0 < d'.data.length := List.length_pos_iff.mpr hd'.1
            rw [pieceAt, if_pos hpos, hd'.2] at hw ⊢
            have e : (chunksData gone).length + o = (chunksData (gone ++ [d])).length + 0 := by
              rw [chunksData_append, List.length_append, show chunksData [d] = d.data from List.append_nil _]
              omega
            rw [e] at hw ⊢
            have h4 := ih (gone ++ [d]) d' rest 0 d'.data.length (by rw [h1]; simp) (Nat.zero_le _) (Nat.le_refl _) hw
            rw [List.drop_zero] at h4 ⊢
            rcases hb : d'.data with _ | ⟨b, bs⟩
            · exact absurd hb hd'.1
            · rw [hb] at h4
              show watch (.look :: xs) (⟨[], .data d'.data :: rest.map fun d => .data d.data⟩ : BufReader) = _
              rw [hb]
              exact congrArg (Seen.chunk ⟨.temporary, b :: bs⟩ :: ·) h4
      | move n =>
        obtain ⟨hn, hw⟩ := hw
        unfold overPieces
        rw [if_pos (by omega)]
        have h4 := ih gone d rest (o + n) (s - n) h1 (by omega) (by omega) (by rw [← Nat.add_assoc]; exact hw)
        rw [← Nat.add_assoc, ← List.drop_drop] at h4
        exact congrArg (Seen.moved :: ·) h4
      | left => exact congrArg (Seen.hint none :: ·) (ih gone d rest o s h1 h2 h3 hw)
  have start : ∀ (calls : List BufCall), StaysWithin ps calls 0 0 →
      watch calls (⟨[], ps.map fun d => .data d.data⟩ : BufReader) = overPieces ps (fun _ => none) calls 0 := by
    intro calls
    induction calls with
    | nil => exact fun _ => rfl
    | cons x xs ih =>
      intro hw
      cases x with
      | look =>
        cases ps with
        | nil => exact congrArg (Seen.fails .eof :: ·) (ih hw)
        | cons d rest =>
          have hd := hps d (by simp)
          have hpos : 0 < d.data.length := List.length_pos_iff.mpr hd.1
          have hw : StaysWithin (d :: rest) xs 0 (match pieceAt (d :: rest) 0 with
            | some c => c.data.length
            | none => 0) := hw
          show _ = (match pieceAt (d :: rest) 0 with
            | some c => Seen.chunk c
            | none => .fails .eof) :: overPieces (d :: rest) (fun _ => none) xs 0
          rw [pieceAt, if_pos hpos, hd.2] at hw ⊢
          have h4 := main xs [] d rest 0 d.data.length rfl (Nat.zero_le _) (Nat.le_refl _) hw
          rw [List.drop_zero] at h4 ⊢
          rcases hb : d.data with _ | ⟨b, bs⟩
          · exact absurd hb hd.1
          · rw [hb] at h4
            show watch (.look :: xs) (⟨[], .data d.data :: rest.map fun d => .data d.data⟩ : BufReader) = _
            rw [hb]
            exact congrArg (Seen.chunk ⟨.temporary, b :: bs⟩ :: ·) h4
      | move n =>
        obtain ⟨hn, hw⟩ := hw
        have hn : n = 0 := by omega
        subst hn
        rw [c106_reader_unseen]
        unfold overPieces
        rw [if_pos (by omega)]
        exact congrArg (Seen.moved :: ·) (ih hw)
      | left => exact congrArg (Seen.hint none :: ·) (ih hw)
  exact start calls hc

/-- **C106** So it is not a buffer over the pieces it reads, whatever it hints. -/
theorem c106_reader_differs : ¬ ∀ (ps : List Chunk) (hint : Nat → Option Nat) (calls : List BufCall), (∀ d ∈ ps, d.data ≠ [] ∧ d.loc = .temporary) →
    watch calls (⟨[], ps.map fun d => .data d.data⟩ : BufReader) = overPieces ps hint calls 0 := by
  intro h
  have h1 := h [⟨.temporary, [1, 2]⟩, ⟨.temporary, [3, 4]⟩] (fun _ => none) [.look, .move 3, .look] (by decide)
  exact absurd h1 (by decide)

/-! ## Where the cursors of the crate come from, and how far the crate advances -/

/-- **C106** The cursors are made like that: a parser for `len` bytes split off any buffer, whatever that buffer does, is one over nonempty pieces of
`len` bytes in all. -/
theorem c106_split {β : Type} [ParseBuf β] (len : Nat) (hl : len < usizeLimit) (p : Parser β) (q : Parser Cursor) (h : (P.splitAt len p).res = .ok q)
    (calls : List BufCall) : (chunksData q.data.buf.chunks).length = len ∧
      watch calls q.data.buf = overPieces q.data.buf.chunks (fun _ => some len) calls 0 := by
  have h1 := P.splitAt_post len p q h
  have h2 : (chunksData q.data.buf.chunks).length = len := by rw [chunksData_length]; exact h1.bytes
  have h3 := c106_cursor q.data.buf.chunks h1.nonempty (by omega) calls
  rw [h2] at h3
  have h4 : q.data.buf = ⟨q.data.buf.chunks, 0, len⟩ := by
    rcases hq : q.data.buf with ⟨cs, o, l⟩
    have a := h1.offset
    have b := h1.hint
    rw [hq] at a b
    dsimp only at a b
    rw [a, b]
  refine ⟨h2, ?_⟩
  rw [← h3]
  exact congrArg _ h4

/-- A buffer that panics when it is advanced past what it has shown since. -/
structure Guarded (β : Type) where
  buf : β
  shown : Nat

instance {β : Type} [ParseBuf β] : ParseBuf (Guarded β) where
  chunk g := ((ParseBuf.chunk g.buf).1, ⟨(ParseBuf.chunk g.buf).2, match (ParseBuf.chunk g.buf).1 with
    | .ok c => c.data.length
    | .error _ => 0⟩)
  advance g n := if n ≤ g.shown then (ParseBuf.advance g.buf n).map fun b => ⟨b, g.shown - n⟩ else none
  hint g := ParseBuf.hint g.buf
  steps g := ParseBuf.steps g.buf

instance {β : Type} [ParseBuf β] [Lawful β] : Lawful (Guarded β) where
  Rep g s := Lawful.Rep g.buf s
  chunk_law g s h := by
    have h1 := Lawful.chunk_law g.buf s h
    show ChunkLaw _ g s ((ParseBuf.chunk g.buf).1, ⟨(ParseBuf.chunk g.buf).2, match (ParseBuf.chunk g.buf).1 with
      | .ok c => c.data.length
      | .error _ => 0⟩)
    rcases hx : ParseBuf.chunk g.buf with ⟨(_ | _ | _) | c, b⟩ <;> rw [hx] at h1
    · exact h1
    · exact h1
    · exact h1
    · obtain ⟨a1, a2, a3, a4, a5, a6, a7⟩ := h1
      refine ⟨a1, a2, a3, a4, a5, a6, fun k hk => ?_⟩
      obtain ⟨b', c1, c2, c3, c4⟩ := a7 k hk
      refine ⟨⟨b', c.data.length - k⟩, ?_, c2, c3, c4⟩
      show (if k ≤ c.data.length then (ParseBuf.advance b k).map fun b => (⟨b, c.data.length - k⟩ : Guarded β) else none) = _
      rw [if_pos hk, c1]
      rfl

instance {β : Type} [ParseBuf β] [Lawful β] [Roaming β] : Roaming (Guarded β) where
  chunk g s h := Roaming.chunk g.buf s h
  advance g s n g' h hg := by
    have hg : (if n ≤ g.shown then (ParseBuf.advance g.buf n).map fun b => (⟨b, g.shown - n⟩ : Guarded β) else none) = some g' := hg
    split at hg
    · rcases ha : ParseBuf.advance g.buf n with _ | b' <;> rw [ha] at hg
      · cases hg
      · cases hg
        exact Roaming.advance g.buf s n b' h ha
    · cases hg

/-- **C106** No program ever advances the buffer past what it has been shown: the guard does not panic, over any buffer that keeps the contract. -/
theorem c106_within {β : Type} [ParseBuf β] [Lawful β] [Roaming β] {α : Type} (prog : Prog α) (b : β) (s : Stream) (hb : Lawful.Rep b s) (cfg : ParseConfig)
    (hw : cfg.Wf) : Returns (prog.run (Guarded β) (Parser.new ⟨b, 0⟩ cfg)).res :=
  (c63_no_panic prog ⟨⟨s, 0, cfg⟩, hb, rfl, rfl, hw⟩).1

/-- The same for a `BufReader` over a reader that answers its `read` calls in any way. -/
theorem c106_within_reader {α : Type} (prog : Prog α) (es : List ReadEvent) (cfg : ParseConfig) (hw : cfg.Wf) :
    Returns (prog.run (Guarded BufReader) (Parser.new ⟨⟨[], es⟩, 0⟩ cfg)).res := by
  obtain ⟨s, hs⟩ := BufReader.rep_total ⟨[], es⟩
  exact c106_within prog _ s hs cfg hw

/-! ## Concrete cases -/

/-- Three pieces, of which the second is skipped. -/
def demoBody : List Chunk := [⟨.external 100, [1, 2]⟩, ⟨.temporary, [3]⟩, ⟨.external 200, [4, 5, 6]⟩]

theorem c106_example :
    watch [.look, .move 1, .look, .move 3, .look, .left, .move 2, .look, .move 1] (⟨demoBody, 0, 6⟩ : Cursor) =
      [.chunk ⟨.external 100, [1, 2]⟩, .moved, .chunk ⟨.external 101, [2]⟩, .moved, .chunk ⟨.external 201, [5, 6]⟩, .hint (some 6), .moved, .fails .eof, .panics] ∧
    watch [.move 2, .left, .look, .move 2] (⟨7, [1, 2, 3]⟩ : Slice) = [.moved, .hint (some 1), .chunk ⟨.external 9, [3]⟩, .panics] ∧
    watch [.look, .move 3, .look] (⟨[], [.data [1, 2], .data [3, 4]]⟩ : BufReader) =
      [.chunk ⟨.temporary, [1, 2]⟩, .moved, .chunk ⟨.temporary, [3, 4]⟩] ∧
    watch [.look, .move 1, .move 2] (⟨⟨[], [.data [1, 2], .data [3, 4]]⟩, 0⟩ : Guarded BufReader) =
      [.chunk ⟨.temporary, [1, 2]⟩, .moved, .panics] := by decide

/-- A sequence of calls to which `c106_reader_within` applies. -/
example : StaysWithin [⟨.temporary, [1, 2]⟩, ⟨.temporary, [3]⟩] [.look, .move 1, .look, .move 1, .look, .left, .move 1, .look] 0 0 := by
  simp [StaysWithin, pieceAt]

end Perf
