import Verif.Proof.Modest
import Verif.Props.User
/-!
# C79: how much memory a program can make the parser request at a time

Programs are those of C63: any sequence of calls of the public methods, with any numbers of elements or bytes, going on
after errors or not. The log lists every `Vec::with_capacity` and `to_vec` of input-dependent size, in bytes.
-/
namespace Perf
variable {β : Type} [ParseBuf β] {α : Type}

/-- **C79** For any buffer: as long as the buffer shows at most `B` bytes at a time and announces at most `B` (16 KiB count
as announced if it announces nothing), every request is for at most `B` bytes, or for at most the largest body of a record.
The states that matter are those that `chunk` and `advance` lead to. -/
theorem c79_program (prog : Prog α) (I : Parser β → Prop) (B : Nat)
    (hc : ∀ p, I p → I (P.chunk p).st) (ha : ∀ p n, I p → I (P.advance n p).st)
    (hlen : ∀ p c, I p → (P.chunk p).res = .ok c → c.data.length ≤ B)
    (hhint : ∀ p, I p → match ParseBuf.hint p.data with | some n => n ≤ B | none => 16384 ≤ B)
    {p : Parser β} (hp : I p) : ∀ x ∈ (prog.run β p).log, x ≤ max B 65527 := by
  have r : Fits (max B 65527) I := ⟨⟨⟨hc, ha⟩, fun p c h e => Nat.le_trans (hlen p c h e) (Nat.le_max_left _ _)⟩, fun p h => by
    have := hhint p h
    split at this
    · next e => rw [e]; exact Nat.le_trans this (Nat.le_max_left _ _)
    · next e => rw [e]; exact Nat.le_trans this (Nat.le_max_left _ _)⟩
  exact (Modest.prog (Nat.le_max_right _ _) prog β I r p hp).2

/-- **C79** In particular for a slice: never more than the slice, or the largest body of a record. -/
theorem c79_slice (prog : Prog α) (addr : Nat) (data : List Byte) (cfg : ParseConfig) :
    ∀ x ∈ (prog.run Slice (Parser.new ⟨addr, data⟩ cfg)).log, x ≤ max data.length 65527 := by
  have f := (Extent.slice data.length).fits
  exact c79_program prog _ data.length f.chunk f.advance f.chunkLen (fun p h => f.hint p h) ⟨data.length, Nat.le_refl _, Nat.le_refl _, Nat.le_refl _⟩

/-- What a reader can still show at once. -/
def BufReader.Portions (B : Nat) (r : BufReader) : Prop := r.buf.length ≤ B ∧ ∀ bs, ReadEvent.data bs ∈ r.script → bs.length ≤ B

theorem BufReader.portions_chunk {B : Nat} {r : BufReader} (h : r.Portions B) :
    (ParseBuf.chunk r).2.Portions B ∧ ∀ c, (ParseBuf.chunk r).1 = .ok c → c.data.length ≤ B := by
  have hf : (r.fillBuf).2.Portions B ∧ ∀ bs, (r.fillBuf).1 = .ok bs → bs.length ≤ B := by
    unfold BufReader.fillBuf
    split
    · rename_i bs es hb hs
      have := h.2 bs (by rw [hs]; exact List.mem_cons_self ..)
      exact ⟨⟨this, fun x hx => h.2 x (by rw [hs]; exact List.mem_cons_of_mem _ hx)⟩, fun x hx => by cases hx; exact this⟩
    · rename_i e es hb hs
      exact ⟨⟨Nat.zero_le _, fun x hx => h.2 x (by rw [hs]; exact List.mem_cons_of_mem _ hx)⟩, nofun⟩
    · exact ⟨h, fun x hx => by cases hx; exact Nat.zero_le _⟩
    · rename_i b bs _ hb
      exact ⟨h, fun x hx => by cases hx; have := h.1; rw [‹r.buf = _›] at this; exact this⟩
  show (match r.fillBuf with
    | (.error e, r') => (.error (.err (.ofIo e)), r')
    | (.ok [], r') => (.error (.err .eof), r')
    | (.ok (b :: bs), r') => (.ok ⟨.temporary, b :: bs⟩, r') : Except Fault Chunk × BufReader).2.Portions B ∧
    ∀ c, (match r.fillBuf with
    | (.error e, r') => (.error (.err (.ofIo e)), r')
    | (.ok [], r') => (.error (.err .eof), r')
    | (.ok (b :: bs), r') => (.ok ⟨.temporary, b :: bs⟩, r') : Except Fault Chunk × BufReader).1 = .ok c → c.data.length ≤ B
  split
  · rename_i e r' he
    rw [he] at hf
    exact ⟨hf.1, nofun⟩
  · rename_i r' he
    rw [he] at hf
    exact ⟨hf.1, nofun⟩
  · rename_i b bs r' he
    rw [he] at hf
    exact ⟨hf.1, fun c hc => by cases hc; exact hf.2 _ rfl⟩

/-- **C79** For a `BufReader` whose reader delivers at most `B` bytes per call (its capacity, 8 KiB unless chosen otherwise). -/
theorem c79_reader (prog : Prog α) (es : List ReadEvent) (B : Nat) (h : ∀ bs, ReadEvent.data bs ∈ es → bs.length ≤ B) (cfg : ParseConfig) :
    ∀ x ∈ (prog.run BufReader (Parser.new ⟨[], es⟩ cfg)).log, x ≤ max B 65527 := by
  have := c79_program prog (fun p : Parser BufReader => p.data.buf.Portions (max B 16384)) (max B 16384)
    (fun p h => (BufReader.portions_chunk h).1)
    (fun p n h => ⟨Nat.le_trans (by show (p.data.buf.buf.drop n).length ≤ _; rw [List.length_drop]; exact Nat.sub_le _ _) h.1, h.2⟩)
    (fun p c h hc => (BufReader.portions_chunk h).2 c hc)
    (fun p _ => Nat.le_max_right _ _)
    (p := Parser.new ⟨[], es⟩ cfg) ⟨Nat.zero_le _, fun bs hb => Nat.le_trans (h bs hb) (Nat.le_max_left _ _)⟩
  intro x hx
  have := this x hx
  omega

theorem ChunkBuf.advLoop_le {B : Nat} : ∀ (ss : List Slice) (n : Nat), (∀ s ∈ ss, s.data.length ≤ B) →
    ∀ s ∈ ChunkBuf.advLoop ss n, s.data.length ≤ B
  | [], _, _, _, h => nomatch h
  | s :: ss, n, hs, x, hx => by
    unfold ChunkBuf.advLoop at hx
    split at hx
    · rcases List.mem_cons.mp hx with hx | hx
      · rw [hx]
        have := hs s (List.mem_cons_self ..)
        simp only [List.length_drop]
        omega
      · exact hs x (List.mem_cons_of_mem _ hx)
    · exact ChunkBuf.advLoop_le ss _ (fun y hy => hs y (List.mem_cons_of_mem _ hy)) x hx

/-- **C79** For data in borrowed pieces of at most `B` bytes each. -/
theorem c79_pieces (prog : Prog α) (ps : List Slice) (B : Nat) (h : ∀ s ∈ ps, s.data.length ≤ B) (cfg : ParseConfig) :
    ∀ x ∈ (prog.run ChunkBuf (Parser.new ⟨ps⟩ cfg)).log, x ≤ max B 65527 := by
  have := c79_program prog (fun p : Parser ChunkBuf => ∀ s ∈ p.data.buf.pieces, s.data.length ≤ max B 16384) (max B 16384)
    (fun p h => h) (fun p n h => ChunkBuf.advLoop_le _ n h)
    (fun p c h hc => by
      have hc : (match p.data.buf.pieces with
        | [] => .error (.err .eof)
        | s :: _ => .ok ⟨.external s.addr, s.data⟩ : Except Fault Chunk) = .ok c := hc
      split at hc
      · cases hc
      · rename_i s ss he
        cases hc
        exact h s (by rw [he]; exact List.mem_cons_self ..))
    (fun p _ => Nat.le_max_right _ _)
    (p := Parser.new ⟨ps⟩ cfg) (fun s hs => Nat.le_trans (h s hs) (Nat.le_max_left _ _))
  intro x hx
  have := this x hx
  omega

/-! ## Programs that ask for too much -/

/-- A program that trusts its input: a count, then as many elements of 16 bytes through `parse_repeated`; on failure it
tries again behind. -/
def greedy : Nat → Prog Nat
  | 0 => .done 0
  | n + 1 => .u64 fun c => .attempt (.repeated 16 (.u64 .done) c.toNat .done) fun
    | .ok l => .done l.length
    | .error _ => greedy n

/-- Counts of `2^60` and `2^64 - 1`: each attempt over a reader requests 16 KiB for the count it read, however large, even where nothing is left. -/
example : ((greedy 2).run BufReader (Parser.new ⟨[], [.data [0, 0, 0, 0, 0, 0, 0, 16], .error ⟨false, "try again"⟩, .data [255, 255, 255, 255, 255, 255, 255, 255]]⟩ demoCfg)).log =
    [16384, 16384] := by decide +kernel

/-- Over a slice, never more than what is left of it. -/
example : ((greedy 2).run Slice (Parser.new ⟨1, [0, 0, 0, 0, 0, 0, 0, 16, 1, 1, 1, 1, 1, 1, 1, 1, 2, 2, 2, 2, 2, 2, 2, 2, 3]⟩ demoCfg)).log = [16] := by
  decide +kernel

end Perf
