import Verif.Proof.Hostile
import Verif.Props.Chunking
import Verif.Props.User
/-!
# C76: the `unsafe` code, and buffers that break the rules

No theorem here assumes anything of what the buffer returns: its chunks may be empty or change from one call to the next, `advance`
may do anything, `remaining_hint` may be wrong.
-/
namespace Perf
variable {β : Type} [ParseBuf β] {α T O : Type}

/-! ## The preconditions of the `unsafe` operations -/

/-- **C76** `parse_to_slice` with its pointer arithmetic, on memory `mem` with any contents: every write is inside `mem` (the outcome
`none` does not occur), and if it succeeds all of `mem` has been written. What was written is what `toSlice` says. -/
theorem c76_to_slice (mem : Mem) : (P.toSliceRaw mem : P β (Option Mem)) = (P.toSlice mem.length >>= fun w => pure (some (w.map some))) ∧
    ∀ p o, ((P.toSliceRaw mem : P β (Option Mem)) p).res = .ok o →
      ∃ m, o = some m ∧ m.length = mem.length ∧ ∀ x ∈ m, x.isSome = true := by
  refine ⟨P.toSliceRaw_eq mem, fun p o h => ?_⟩
  rw [P.toSliceRaw_eq] at h
  refine Post.bind (Post.toSlice (β := β) mem.length) (R := fun o => ∃ m, o = some m ∧ m.length = mem.length ∧ ∀ x ∈ m, x.isSome = true)
    (fun w hw => Post.pure ⟨w.map some, rfl, by simp [hw], fun x hx => ?_⟩) p o h
  obtain ⟨b, _, rfl⟩ := List.mem_map.1 hx
  rfl

/-- **C76** `parse_bytes`: if the vector has the capacity asked for, the function with its `set_len` is the function of the model. -/
theorem c76_bytes (len : Nat) : (P.bytesRaw len len : P β (Option (Cow Byte))) = (P.bytes len >>= fun c => pure (some c)) :=
  P.bytesRaw_eq len

/-- **C76** `parse_bytes` with a vector of any larger capacity: `set_len` never exposes an uninitialised byte, and the result has `len`
bytes. -/
theorem c76_bytes_capacity {len cap : Nat} (h : len ≤ cap) (p : Parser β) {o : Option (Cow Byte)}
    (ho : ((P.bytesRaw len cap : P β (Option (Cow Byte))) p).res = .ok o) : ∃ c : Cow Byte, o = some c ∧ c.data.length = len :=
  Post.bytesRaw h p o ho

/-- **C76** `parse_array`, the array being at any address. -/
theorem c76_array (addr n : Nat) : (P.arrayRaw addr n : P β (Option (List Byte))) = (P.array n >>= fun w => pure (some w)) :=
  P.arrayRaw_eq addr n

/-- **C76** `align_to` where `parse_slice_direct` uses it: the head and the tail are empty exactly if there are no elements or the address
is aligned, and then the middle is all `len` elements. -/
theorem c76_align_to {addr len size align : Nat} (ha : 0 < align) (hs : 0 < size) :
    let r := alignTo addr (len * size) size align
    (r.1 = 0 ∧ r.2.2 = 0 ↔ len = 0 ∨ addr % align = 0) ∧ (r.1 = 0 ∧ r.2.2 = 0 → r.2.1 = len) := by
  have h := alignTo_whole (addr := addr) (len := len) ha hs
  have e : (alignTo addr (len * size) size align).1 = 0 ∧ (alignTo addr (len * size) size align).2.2 = 0 ↔
      ¬ ((alignTo addr (len * size) size align).1 ≠ 0 ∨ (alignTo addr (len * size) size align).2.2 ≠ 0) := by
    constructor
    · rintro ⟨h1, h2⟩ (h | h)
      · exact h h1
      · exact h h2
    · exact fun h => ⟨Decidable.byContradiction fun h' => h (.inl h'), Decidable.byContradiction fun h' => h (.inr h')⟩
  exact ⟨e.trans h.1, fun h' => h.2 (e.1 h')⟩

/-- **C76** `parse_slice_direct` written with `align_to` is the function of the model. -/
theorem c76_slice_direct (e : Elem T) (hs : 0 < e.size) (len : Nat) :
    (P.sliceDirectRaw e 8 len : P β (Option (List T))) = P.sliceDirect e len := P.sliceDirectRaw_eq e hs len

/-- **C76** Whatever the buffer does, a call that asks for `n` things and succeeds returns `n` things. -/
theorem c76_lengths (n : Nat) (p : Parser β) :
    (∀ c, (P.bytes n p).res = .ok c → c.data.length = n) ∧
    (∀ a, (P.array n p).res = .ok a → a.length = n) ∧
    (∀ (e : Elem T) (item : P β T) c, (P.slice e item n p).res = .ok c → c.data.length = n) ∧
    ∀ (size : Nat) (item : P β T) l, (P.repeated size item n p).res = .ok l → l.length = n :=
  ⟨Post.bytes n p, Post.array n p, fun e item => Post.slice e item n p, fun size item => Post.repeated size item n p⟩

/-- **C76** fails in one point: `parse_bytes` fills the whole capacity of its vector, not `len` bytes. `Vec::with_capacity` may give more
than was asked for; then more than `len` bytes are consumed, and 2 bytes out of 2 cannot be read. (Lean's `bytes`, and the standard
library as it is, take the capacity to be exact.) -/
theorem c76_capacity_false :
    let two : Parser Cursor := Parser.new ⟨[⟨.temporary, [1, 2]⟩], 0, 2⟩ demoCfg
    let four : Parser Cursor := Parser.new ⟨[⟨.temporary, [1, 2, 3, 4]⟩], 0, 4⟩ demoCfg
    (P.bytesRaw 2 2 two).res = .ok (some (.owned [1, 2])) ∧ (P.bytesRaw 2 3 two).res = .error (.err .eof) ∧
    (P.bytesRaw 2 3 four).res = .ok (some (.owned [1, 2])) ∧ (P.bytesRaw 2 3 four).st.data.offset = 3 :=
  ⟨rfl, rfl, rfl, rfl⟩

/-! ## A record out of such a buffer -/

/-- What `parse_record_with_header` on a buffer `p` of which nothing is known comes to. -/
inductive CopyThen (v : Visitor Cow O) (h : Header) (p : Parser β) (o : Out β O) : Prop
  /-- The header is refused. -/
  | tooSmall (hs : h.size.toNat < 8) (ho : o.res = .error (.err (.custom .invalidRecord "header size was too small to be valid")))
  /-- The buffer fails before it has shown the whole record; the failure is passed on. -/
  | ended (hs : 8 ≤ h.size.toNat) (e : Fault) (he : (P.splitAt (h.size.toNat - 8) p).res = .error e) (ho : o.res = .error e)
  /-- There are `size - 8` bytes; the result is what the same call returns on a cursor holding these bytes, which obeys all the rules;
  and the buffer is left where `split_at` has left it. -/
  | copied (hs : 8 ≤ h.size.toNat) (bytes : List Byte) (hb : bytes.length = h.size.toNat - 8) (c : Parser Cursor)
    (hc : RepP c ⟨⟨bytes, .unknown, .eof⟩, 0, p.config⟩) (hp : (P.splitAt (h.size.toNat - 8) p).res = .ok c)
    (ho : o.res = (P.recordWithHeader v h c).res) (hst : o.st = (P.splitAt (h.size.toNat - 8) p).st)

/-- **C76** A record is read from a copy: no buffer can show the record parsers anything but a fixed string of `size - 8` bytes. -/
theorem c76_record (v : Visitor Cow O) (h : Header) (p : Parser β) (hw : p.config.Wf) : CopyThen v h p (P.recordWithHeader v h p) := by
  rcases (P.record_copy p v h).cases with ⟨h1, h2, _⟩ | ⟨h1, e, h2, h3, _⟩ | ⟨h1, c, h2, h3, h4, h5, _⟩
  · exact .tooSmall h1 h2
  · exact .ended h1 e h2 h3
  · refine .copied h1 (chunksData c.data.buf.chunks) ?_ c (h3.rep (by have := h.size_lt; unfold usizeLimit; omega) hw) h2 h4 h5
    rw [chunksData_length, h3.pieces.total]

/-- Two lawful buffers with the same contents, the header given. -/
theorem record_same {γ δ : Type} [ParseBuf γ] [Lawful γ] [ParseBuf δ] [Lawful δ] {p : Parser γ} {q : Parser δ} {f g : Flat}
    (hp : RepP p f) (hq : RepP q g) (h : SameBytes f g) (hd : Header) (hf : Spec.recordWithHeader hd f ≠ .error .stuck)
    (hg : Spec.recordWithHeader hd g ≠ .error .stuck) (v : Visitor Cow O) :
    SameOutcome v (P.recordWithHeader v hd p).res (P.recordWithHeader v hd q).res := by
  obtain ⟨_, _, x⟩ := P.recordWithHeader_run hp v hd
  obtain ⟨_, _, y⟩ := P.recordWithHeader_run hq v hd
  unfold Spec.recordWithHeader at hf hg
  rcases metadata_same h hp.wf hd with ⟨e, e1, e2⟩ | ⟨r, r', md, i, j, len, e1, e2, e3, e4, e5, e6, _⟩
  · rw [e1] at x
    rw [e2] at y
    exact .inl ⟨e, x, y⟩
  · rw [e1] at x hf
    rw [e2] at y hg
    refine BodyOk.same x y e3 (by rw [e4]; rfl) ?_ (by rw [e4]; exact hp.wf) ?_ ?_
    · rw [e4]; simp [Flat.region]; omega
    · intro hs; exact hf (by simp only [hs])
    · intro hs; exact hg (by simp only [hs])

/-- **C76** In the open: when the record is complete, there are `size - 8` bytes such that the outcome is that of the same call on a plain
slice of them, at any address. For the types without lists of words and without TEXT_POKE's split, which depend on more than the bytes
already for well-behaved buffers (C02). -/
theorem c76_slice (v : Visitor Cow O) (h : Header) (ht : h.type_.toNat ∉ [9, 16, 20]) (p : Parser β) (hw : p.config.Wf)
    (hs : 8 ≤ h.size.toNat) {c : Parser Cursor} (hc : (P.splitAt (h.size.toNat - 8) p).res = .ok c) :
    ∃ bytes : List Byte, bytes.length = h.size.toNat - 8 ∧ ∀ addr, SameOutcome v (P.recordWithHeader v h p).res
      (P.recordWithHeader v h (Parser.new (⟨addr, bytes⟩ : Slice) p.config)).res := by
  cases c76_record v h p hw with
  | tooSmall h1 => omega
  | ended h1 e h2 => rw [hc] at h2; cases h2
  | copied h1 bytes hb c' hr h2 ho _ =>
    refine ⟨bytes, hb, fun addr => ?_⟩
    rw [ho]
    exact record_same hr (RepP.slice addr bytes hw) ⟨rfl, rfl, rfl⟩ h (NoStuck.recordWithHeader ht _) (NoStuck.recordWithHeader ht _) v

/-- **C76** No buffer makes the parser ask for more memory than a record can hold: each request of a `parse_record` is for at most 65527
bytes, whatever `remaining_hint` claims. -/
theorem c76_memory (v : Visitor Cow O) (p : Parser β) (hw : p.config.Wf) : ∀ n ∈ (P.record v p).log, n ≤ 65527 := by
  have hh : Asks 65527 (parseHeader : P β Header) := Asks.header
  have key : ∀ (h : Header) (p : Parser β), p.config.Wf → LogLe (P.recordWithHeader v h p).log 65527 := by
    intro h p hw
    have hlt := h.size_lt
    have mono : ∀ {l : List Nat} {B : Nat}, LogLe l B → B ≤ 65527 → LogLe l 65527 := fun hl hB n hn => by have := hl n hn; omega
    have hsp := mono (Asks.splitAt (β := β) (h.size.toNat - 8) p) (by omega)
    rcases (P.record_copy p v h).cases with ⟨_, _, h1⟩ | ⟨_, e, _, _, h1⟩ | ⟨h1, c, h2, h3, h4, h5, l, l', h6, h7⟩
    · rw [h1]; exact LogLe.nil _
    · rw [h1]; exact hsp
    · rw [h6]
      have hr := (P.recordWithHeader_run (h3.rep (by unfold usizeLimit; omega) hw) v h).2.1
      rw [h7] at hr
      dsimp only at hr
      rw [chunksData_length, h3.pieces.total] at hr
      intro n hn
      rcases List.mem_append.1 hn with hn | hn
      · exact hsp n hn
      · exact mono hr (by omega) n (List.mem_append_right _ hn)
  intro n hn
  have : n ≤ max 16384 65527 := by
    have h1 := hh p
    unfold P.record at hn
    rcases hm : (parseHeader : P β Header) p with ⟨e | h, q, l⟩ <;> rw [hm] at h1
    · rw [P.bind_err hm] at hn; exact h1 n hn
    · rw [P.bind_ok hm] at hn
      rcases List.mem_append.1 hn with hn | hn
      · exact h1 n hn
      · refine key h q ?_ n hn
        have s := Stable.config (β := β) p.config
        have hI : Inv (fun q : Parser β => q.config = p.config) (fun _ => True) (parseHeader : P β Header) :=
          Inv.skip (Inv.u32 s) fun _ => Inv.skip (Inv.u16 s) fun _ => Inv.skip (Inv.u16 s) fun _ => Inv.pure trivial
        have := (hI p rfl).1
        rw [hm] at this
        rw [this]; exact hw
  omega

/-- **C76** Whatever sequence of calls of the public interface a user makes, and however the results decide about the next call: if the
functions of the buffer do not panic themselves, nothing panics. -/
theorem c76_no_panic [Meek β] (prog : Prog α) (p : Parser β) (hw : p.config.Wf) : (prog.run β p).res ≠ .error .panic :=
  (Calm.prog prog p hw).1

/-! ## Examples -/

instance : Meek Slice where
  chunk s h := by
    simp only [ParseBuf.chunk] at h
    split at h <;> cases h
  advance s c n hc hn := by
    simp only [ParseBuf.chunk] at hc
    split at hc
    · cases hc
    · cases hc
      exact ⟨_, by simp only [ParseBuf.advance, ParseBuf.chunk]; rw [if_pos hn]⟩

instance : Meek BufReader where
  chunk r h := by
    simp only [ParseBuf.chunk] at h
    split at h <;> cases h
  advance _ _ _ _ _ := ⟨_, rfl⟩

instance : Meek ChunkBuf where
  chunk b h := by
    simp only [ParseBuf.chunk] at h
    split at h <;> cases h
  advance _ _ _ _ _ := ⟨_, rfl⟩

/-- A buffer that shows something new at each call of `chunk`, ignores `advance`, and claims to hold `2 ^ 60` bytes. -/
structure Liar where
  shows : List (List Byte)

instance : ParseBuf Liar where
  chunk b := match b.shows with
    | [] => (.error (.err .eof), b)
    | d :: ds => (.ok ⟨.temporary, d⟩, ⟨ds⟩)
  advance b _ := some b
  hint _ := some (2 ^ 60)
  steps _ := 1000

instance : Meek Liar where
  chunk b h := by
    simp only [ParseBuf.chunk] at h
    split at h <;> cases h
  advance _ _ _ _ _ := ⟨_, rfl⟩

/-- It is not one of the buffers of the other properties: it shows 3, is advanced by 0, and shows 7. -/
example : ParseBuf.chunk (⟨[[3], [7]]⟩ : Liar) = (.ok ⟨.temporary, [3]⟩, ⟨[[7]]⟩) ∧
    ParseBuf.advance (⟨[[7]]⟩ : Liar) 0 = some ⟨[[7]]⟩ ∧
    ParseBuf.chunk (⟨[[7]]⟩ : Liar) = (.ok ⟨.temporary, [7]⟩, ⟨[]⟩) := ⟨rfl, rfl, rfl⟩

/-- A LOST record out of it: the type from the first chunk, of which the rest is dropped; `misc` from the second; and so on. One chunk
is empty. -/
def liarLost : Parser Liar :=
  Parser.new ⟨[[2, 0, 0, 0, 9, 9], [0, 0], [24, 0, 9], [], [7, 0, 0, 0, 0, 0, 0, 0], [3, 0, 0, 0, 0, 0, 0, 0, 9, 9]]⟩ demoCfg

example : (match (P.parseRecord liarLost).res with
    | .ok (.lost l) => l.id == 7#64 && l.lost == 3#64
    | _ => false) = true := by decide +kernel
example : ∀ n ∈ (P.record (recordVisitor Cow) liarLost).log, n ≤ 65527 := c76_memory _ _ demoCfg_wf
/-- The hypotheses of `c76_slice` hold after the header has been read. -/
example : (P.splitAt 16 (Parser.new (⟨[[], [7, 0, 0, 0, 0, 0, 0, 0], [3, 0, 0, 0, 0, 0, 0, 0, 9, 9]]⟩ : Liar) demoCfg)).res.isOk = true := by
  decide +kernel
/-- With the size 65535 and 2⁶⁰ bytes claimed, the end is reported when it comes; what had been collected is all that was asked for. -/
example : (match P.record (recordVisitor Cow) (Parser.new (⟨[[2, 0, 0, 0], [0, 0], [255, 255], [1, 2, 3]]⟩ : Liar) demoCfg) with
    | ⟨.error (.err e), _, l⟩ => e.kind == .eof && l == [3]
    | _ => false) = true := by decide +kernel

end Perf
