import Verif.Props.Bits
/-!
# The parser's own operations: C31, C32, C33, C35, C36
-/
namespace Perf
variable {β : Type} [ParseBuf β] [Lawful β] {p : Parser β} {f : Flat} {o : Order} {tl : List Byte}

/-! ## C31 -/

/-- **C31** On input that is not exhausted, whatever `remaining_hint` says (lawfulness does not restrict it). -/
theorem c31_bytes (hp : RepP p f) (hne : f.s.bytes ≠ []) (n : Nat) :
    (n ≤ f.s.bytes.length → ∃ c : Cow Byte, (P.bytes n p).res = .ok c ∧ c.data = f.s.bytes.take n ∧
      RepP (P.bytes n p).st (f.adv n) ∧ (P.bytes n p).st.data.offset = p.data.offset + n) ∧
    (f.s.bytes.length < n → (P.bytes n p).res = .error (.err f.s.fin)) := by
  have h := (P.bytes_takes hp n).1
  unfold TakesNe at h
  rw [if_neg hne] at h
  obtain ⟨c, h1, h2⟩ := h
  unfold Takes at h2
  constructor
  · intro hn
    rw [if_pos hn] at h2
    refine ⟨c, h2.1, h1, h2.2.1, ?_⟩
    rw [h2.2.1.off, hp.off, Flat.adv_off]
  · intro hn
    rw [if_neg (by omega)] at h2
    exact h2

/-- The end-of-input error is the plain `Eof` for slices, cursors and pieces, and for a reader that reaches its end. -/
theorem c31_eof (addr n : Nat) (data : List Byte) (es : List ReadEvent) {cfg : ParseConfig} (hw : cfg.Wf) :
    (data ≠ [] → data.length < n → (P.bytes n (Parser.new (⟨addr, data⟩ : Slice) cfg)).res = .error (.err .eof)) ∧
    (scriptBytes es ≠ [] → (scriptBytes es).length < n →
      (P.bytes n (Parser.new (⟨[], es⟩ : BufReader) cfg)).res = .error (.err (scriptFin es))) :=
  ⟨fun h1 h2 => (c31_bytes (RepP.slice addr data hw) h1 n).2 h2, fun h1 h2 => (c31_bytes (RepP.reader es hw) h1 n).2 h2⟩

/-- The three paths: borrowed, preallocated (a cursor knows its length), incremental. -/
example : (P.bytes 3 (Parser.new (⟨9, [1, 2, 3, 4]⟩ : Slice) demoCfg)).res = .ok (.borrowed [1, 2, 3]) ∧
    (P.bytes 3 (Parser.new (⟨[⟨.temporary, [1, 2]⟩, ⟨.temporary, [3, 4]⟩], 0, 4⟩ : Cursor) demoCfg)).res = .ok (.owned [1, 2, 3]) ∧
    (P.bytes 3 (Parser.new (⟨[], [.data [1], .data [2, 3], .data [4]]⟩ : BufReader) demoCfg)).res = .ok (.owned [1, 2, 3]) ∧
    (P.bytes 5 (Parser.new (⟨[], [.data [1], .data [2, 3], .data [4]]⟩ : BufReader) demoCfg)).res = .error (.err .eof) := by
  refine ⟨?_, ?_, ?_, ?_⟩ <;> rfl

/-! ## C32 -/

/-- **C32** `parse_rest`. If the buffer ends with an error other than `Eof`, that error is returned. -/
theorem c32_rest (hp : RepP p f) (hne : f.s.bytes ≠ []) :
    (f.s.fin.kind = .eof → ∃ c : Cow Byte, (P.rest p).res = .ok c ∧ c.data = f.s.bytes) ∧
    (f.s.fin.kind ≠ .eof → (P.rest p).res = .error (.err f.s.fin)) := by
  have h := (P.rest_takes hp).1
  rw [if_neg hne] at h
  unfold TakesRest at h
  constructor
  · intro he
    rw [if_pos he] at h
    obtain ⟨c, h1, h2, _⟩ := h
    exact ⟨c, h1, h2⟩
  · intro he
    rw [if_neg he] at h
    exact h

/-- It leaves nothing. -/
theorem c32_rest_end {β : Type} [ParseBuf β] [LawfulEof β] {p : Parser β} (hp : RepP p f) (hne : f.s.bytes ≠ [])
    (he : f.s.fin.kind = .eof) :
    RepP (P.rest p).st (f.adv f.s.bytes.length) ∧ (P.rest p).st.data.offset = p.data.offset + f.s.bytes.length := by
  have h := (P.rest_takes hp).1
  rw [if_neg hne] at h
  unfold TakesRest at h
  rw [if_pos he] at h
  obtain ⟨c, h1, h2, h3⟩ := h
  have h4 := (h3 LawfulEof.eof_law).1
  exact ⟨h4, by rw [h4.off, hp.off, Flat.adv_off]⟩

theorem of_takeWhile : ∀ (l : List Byte) (b : Byte), b ∈ l.takeWhile (· == 0#8) → b = 0#8 := by
  intro l b hb
  induction l with
  | nil => simp at hb
  | cons x xs ih =>
    rw [List.takeWhile_cons] at hb
    split at hb
    · rename_i hx
      rcases List.mem_cons.mp hb with rfl | hb
      · simpa using hx
      · exact ih hb
    · simp at hb

theorem trimNul_spec (bs : List Byte) :
    (∃ k, bs = trimNul bs ++ List.replicate k 0#8) ∧ (trimNul bs).getLast? ≠ some 0#8 := by
  unfold trimNul
  constructor
  · have h1 : bs.reverse = bs.reverse.takeWhile (· == 0#8) ++ bs.reverse.dropWhile (· == 0#8) :=
      List.takeWhile_append_dropWhile.symm
    refine ⟨(bs.reverse.takeWhile (· == 0#8)).length, ?_⟩
    have h2 : bs.reverse.takeWhile (· == 0#8) = List.replicate (bs.reverse.takeWhile (· == 0#8)).length 0#8 := by
      apply List.eq_replicate_of_mem
      intro b hb
      exact of_takeWhile _ b hb
    have h3 := congrArg List.reverse h1
    rw [List.reverse_reverse, List.reverse_append] at h3
    rw [← List.reverse_replicate, ← h2]
    exact h3
  · rw [List.getLast?_reverse]
    intro h
    have := List.head?_dropWhile_not (p := (· == 0#8)) (l := bs.reverse)
    rw [h] at this
    simp at this

/-- **C32** `parse_rest_trim_nul`: the bytes without the zeros at the end; the last byte of the result is not zero, so all of
them and (since only zeros follow the result) nothing else was removed. -/
theorem c32_trim (hp : RepP p f) (hne : f.s.bytes ≠ []) (he : f.s.fin.kind = .eof) :
    ∃ (c : Cow Byte) (k : Nat), (P.restTrimNul p).res = .ok c ∧ f.s.bytes = c.data ++ List.replicate k 0#8 ∧
      c.data.getLast? ≠ some 0#8 := by
  obtain ⟨c, h1, h2⟩ := (c32_rest hp hne).1 he
  obtain ⟨⟨k, h3⟩, h4⟩ := trimNul_spec f.s.bytes
  have hd : (c.truncate (trimNul c.data).length).data = trimNul f.s.bytes := by
    have h5 : (c.truncate (trimNul c.data).length).data = c.data.take (trimNul c.data).length := by
      cases c with
      | owned d => rfl
      | borrowed d =>
        show (if d.length < (trimNul d).length then Cow.borrowed d else .borrowed (d.take (trimNul d).length)).data = _
        split
        · rename_i hlt; exact (List.take_of_length_le (by exact Nat.le_of_lt hlt)).symm
        · rfl
    rw [h5, h2]
    have h6 : f.s.bytes.take (trimNul f.s.bytes).length =
        (trimNul f.s.bytes ++ List.replicate k 0#8).take (trimNul f.s.bytes).length := by rw [← h3]
    rw [h6, List.take_left']
    rfl
  refine ⟨c.truncate (trimNul c.data).length, k, ?_, by rw [hd]; exact h3, by rw [hd]; exact h4⟩
  unfold P.restTrimNul
  rw [P.bind_ok (P.run_eq _ h1)]
  rfl

example : (match (P.restTrimNul (Parser.new (⟨[⟨3, [0x61, 0]⟩, ⟨77, [0x62, 0]⟩, ⟨5, [0, 0]⟩]⟩ : ChunkBuf) demoCfg)).res with
    | .ok c => c.data == [0x61, 0, 0x62]
    | _ => false) = true := by decide +kernel

/-! ## C33 -/

/-- `o`, which returned a slice, did what `o'`, which returned a list, did. -/
structure SameRun {T : Type} (o : Out β (Cow T)) (o' : Out β (List T)) : Prop where
  ok : ∀ xs, o'.res = .ok xs → ∃ c, o.res = .ok c ∧ c.data = xs ∧ ∃ f', RepP o.st f' ∧ RepP o'.st f'
  err : ∀ e, o'.res = .error e → o.res = .error e

theorem slice_sameRun {T : Type} {e : Elem T} {item : P β T} {itemS : Spec T} (h : Refines Eq item itemS)
    (hi : ItemOk e itemS) (hp : RepP p f) (n : Nat) (hne : f.s.bytes ≠ [] ∨ f.cfg.endian.isNative = false)
    (hlim : n * e.size < usizeLimit ∨ f.cfg.endian.isNative = false)
    (hal : f.cfg.endian.isNative = false ∨ f.s.al.aligned = true ∨ f.s.bytes.length < n * e.size ∨ n = 0) :
    SameRun (P.slice e item n p) (P.repeatedLoop item n p) := by
  have h1 := Refines.slice h hi n p f hp
  have h2 := Refines.repeatedLoop h n p f hp
  have h3 : Spec.slice e itemS n f = Spec.repeated itemS n f := by
    unfold Spec.slice
    by_cases hn : f.cfg.endian.isNative = true
    · rw [if_pos hn]
      have hf : f.cfg.endian.isNative ≠ false := by rw [hn]; nofun
      rw [if_neg (by have := hlim.resolve_right hf; omega), if_neg (hne.resolve_right hf), if_neg]
      rintro ⟨a1, a2, a3⟩
      rcases hal.resolve_left hf with h | h | h
      · rw [h] at a3; exact absurd a3 nofun
      · omega
      · exact a1 h
    · rw [if_neg hn]
  rw [h3] at h1
  have h4 : Spec.repeated itemS n f ≠ .error .stuck := by
    by_cases hl : n * e.size ≤ f.s.bytes.length
    · rw [Spec.repeated_ok hi n f hl]; nofun
    · rw [Spec.repeated_short hi n f (by omega)]; nofun
  rcases hs : Spec.repeated itemS n f with er | ⟨xs, f'⟩
  · rw [hs] at h1 h2
    cases er with
    | stuck => exact absurd hs h4
    | err er =>
      have h1 : (P.slice e item n p).res = .error (.err er) := h1
      have h2 : (P.repeatedLoop item n p).res = .error (.err er) := h2
      constructor
      · intro ys hy; rw [h2] at hy; cases hy
      · intro e' he; rw [h2] at he; cases he; exact h1
  · rw [hs] at h1 h2
    obtain ⟨c, a1, a2, a3⟩ := h1
    obtain ⟨ys, b1, b2, b3⟩ := h2
    constructor
    · intro zs hz
      rw [b1] at hz
      cases hz
      exact ⟨c, a1, by rw [b2]; exact a2, f', a3, b3⟩
    · intro e' he; rw [b1] at he; cases he

/-- **C33** for the three element types the crate uses. Missing, because false (witnesses below): native data at a misaligned
address; `n = 0` on exhausted native input (C48). A native count so large that the size overflows is refused with `InvalidRecord`
instead of `Eof`; hence `hlim`. -/
theorem c33_slice_partial (hp : RepP p f) (n : Nat) (hne : f.s.bytes ≠ [] ∨ f.cfg.endian.isNative = false)
    (hlim : n * 24 < usizeLimit ∨ f.cfg.endian.isNative = false)
    (hal : f.cfg.endian.isNative = false ∨ f.s.al.aligned = true ∨ f.s.bytes.length < n * 8 ∨ n = 0) :
    SameRun (P.slice U64.elem parseU64 n p) (P.repeatedLoop parseU64 n p) ∧
    SameRun (P.slice NamespaceEntry.elem parseNamespaceEntry n p) (P.repeatedLoop parseNamespaceEntry n p) ∧
    SameRun (P.slice BranchEntry.elem parseBranchEntry n p) (P.repeatedLoop parseBranchEntry n p) := by
  refine ⟨slice_sameRun Refines.u64 ItemOk.u64 hp n hne ?_ ?_,
    slice_sameRun Refines.namespaceEntry ItemOk.namespaceEntry hp n hne ?_ ?_,
    slice_sameRun Refines.branchEntry ItemOk.branchEntry hp n hne ?_ ?_⟩
  all_goals first
    | exact hlim.imp_left fun h => by simp only [U64.elem, NamespaceEntry.elem, BranchEntry.elem]; omega
    | exact hal.imp_right fun h => h.imp_right fun h => h.imp_left fun h => by
        simp only [U64.elem, NamespaceEntry.elem, BranchEntry.elem]; omega

/-- Aligned native data is reinterpreted in place, a piece boundary in the middle makes it parse element by element. -/
example :
    let bs : List Byte := [1, 0, 0, 0, 0, 0, 0, 0, 2, 0, 0, 0, 0, 0, 0, 0, 3]
    (P.slice U64.elem parseU64 2 (Parser.new (⟨8, bs⟩ : Slice) demoCfg)).res = .ok (.borrowed [1, 2]) ∧
    (P.slice U64.elem parseU64 2 (Parser.new (⟨[⟨8, bs.take 11⟩, ⟨19, bs.drop 11⟩]⟩ : ChunkBuf) demoCfg)).res = .ok (.owned [1, 2]) := by
  refine ⟨?_, ?_⟩ <;> rfl

/-- Native data at a misaligned address: `parse_slice_direct` has already consumed the elements when it finds out, so
`parse_slice` returns the elements *after* the ones asked for. -/
theorem c33_misaligned_false :
    let bs : List Byte := [1, 0, 0, 0, 0, 0, 0, 0, 2, 0, 0, 0, 0, 0, 0, 0]
    (P.repeatedLoop parseU64 1 (Parser.new (⟨9, bs⟩ : Slice) demoCfg)).res = .ok [1] ∧
    (P.slice U64.elem parseU64 1 (Parser.new (⟨9, bs⟩ : Slice) demoCfg)).res = .ok (.owned [2]) ∧
    (P.slice U64.elem parseU64 2 (Parser.new (⟨9, bs⟩ : Slice) demoCfg)).res = .error (.err .eof) := by
  refine ⟨?_, ?_, ?_⟩ <;> rfl

/-! ## C35 -/

/-- States of a buffer reachable by `chunk` and `advance`. -/
inductive Reach {β : Type} [ParseBuf β] : β → β → Prop
  | refl (b : β) : Reach b b
  | chunk {b b' : β} : Reach b b' → Reach b (ParseBuf.chunk b').2
  | advance {b b' b'' : β} {n : Nat} : Reach b b' → ParseBuf.advance b' n = some b'' → Reach b b''

/-- The cursor of a region of 4 bytes, after 3 of them were consumed, still says 4. -/
theorem c35_cursor_false : ∃ c c' : Cursor, (P.newCursor 4 (Parser.new (⟨0, [1, 2, 3, 4, 5]⟩ : Slice) demoCfg)).res = .ok c ∧
    Reach c c' ∧ ParseBuf.hint c' = some 4 ∧ (Cursor.chunk c').toOption.map Chunk.data = some [4] ∧ c'.chunks.length = 1 :=
  ⟨⟨[⟨.external 0, [1, 2, 3, 4]⟩], 0, 4⟩, ⟨[⟨.external 0, [1, 2, 3, 4]⟩], 3, 4⟩, rfl, .advance (n := 3) (.refl _) rfl, rfl, rfl, rfl⟩

/-- **C35** What holds: a slice's hint is exact in every state; a reader and a list of pieces give none; a tracking buffer repeats
its inner buffer's. Missing: exactness for cursors (false); see `c35_cursor_partial`. -/
theorem c35_partial (s : Slice) (r : BufReader) (b : ChunkBuf) (c : Cursor) (n : Nat) :
    (∀ s', Reach s s' → ParseBuf.hint s' = some s'.data.length) ∧ (∀ r', Reach r r' → ParseBuf.hint r' = none) ∧
    (∀ b', Reach b b' → ParseBuf.hint b' = none) ∧
    ParseBuf.hint (Tracking.mk s n) = ParseBuf.hint s ∧ ParseBuf.hint (Tracking.mk c n) = ParseBuf.hint c :=
  ⟨fun _ _ => rfl, fun _ _ => rfl, fun _ _ => rfl, rfl, rfl⟩

theorem slowLoop_bytes : ∀ (cs cs' : List Chunk) (off off' : Nat), Cursor.slowLoop cs off = (cs', off') →
    chunkBytes cs' ≤ chunkBytes cs := by
  intro cs
  induction cs with
  | nil => intro cs' off off' h; simp only [Cursor.slowLoop, Prod.mk.injEq] at h; rw [← h.1]; exact Nat.le_refl _
  | cons c cs ih =>
    intro cs' off off' h
    unfold Cursor.slowLoop at h
    split at h
    · simp only [Prod.mk.injEq] at h; rw [← h.1]; exact Nat.le_refl _
    · have := ih _ _ _ h
      simp only [chunkBytes]
      omega

theorem Cursor.advance_bytes {c c' : Cursor} {n : Nat} (h : c.advance n = some c') :
    chunkBytes c'.chunks ≤ chunkBytes c.chunks ∧ c'.len = c.len := by
  have slow : ∀ d d' : Cursor, d.advanceSlow = some d' → chunkBytes d'.chunks ≤ chunkBytes d.chunks ∧ d'.len = d.len := by
    intro d d' hd
    unfold Cursor.advanceSlow at hd
    split at hd
    · rename_i off heq
      split at hd
      · cases hd
        exact ⟨slowLoop_bytes _ _ _ _ heq, rfl⟩
      · cases hd
    · rename_i x xs off heq
      cases hd
      exact ⟨slowLoop_bytes _ _ _ _ heq, rfl⟩
  unfold Cursor.advance at h
  split at h
  · cases h
  · split at h
    · cases h
    · simp only at h
      split at h
      · split at h
        · cases h; exact ⟨Nat.le_refl _, rfl⟩
        · exact slow ⟨c.chunks, c.offset + n, c.len⟩ _ h
      · exact slow ⟨c.chunks, c.offset + n, c.len⟩ _ h

/-- **C35** A sub-parser's hint is exact when it is made, and never below the number of bytes left. -/
theorem c35_cursor_partial (hp : RepP p f) (n : Nat) (hlim : n < usizeLimit) {c : Parser Cursor}
    (h : (P.splitAt n p).res = .ok c) :
    ParseBuf.hint c.data.buf = some (chunkBytes c.data.buf.chunks) ∧
    ∀ c', Reach c.data.buf c' → ∃ k, ParseBuf.hint c' = some k ∧ chunkBytes c'.chunks - c'.offset ≤ k := by
  have hs := (P.splitAt_takes hp hlim).1
  by_cases hle : n ≤ f.s.bytes.length
  · rw [if_pos hle] at hs
    obtain ⟨d, h1, h2, _⟩ := hs
    rw [h] at h1
    cases h1
    have hb : chunkBytes c.data.buf.chunks = n := by
      rw [← chunksData_length, h2.pieces.data, List.length_take]
      omega
    refine ⟨by rw [hb, ← h2.length]; rfl, fun c' hr => ?_⟩
    have key : ∀ b b' : Cursor, Reach b b' → chunkBytes b'.chunks ≤ chunkBytes b.chunks ∧ b'.len = b.len := by
      intro b b' hr
      induction hr with
      | refl => exact ⟨Nat.le_refl _, rfl⟩
      | chunk _ ih => exact ih
      | advance _ ha ih =>
        have := Cursor.advance_bytes ha
        exact ⟨Nat.le_trans this.1 ih.1, this.2.trans ih.2⟩
    have hk := key _ _ hr
    refine ⟨c'.len, rfl, ?_⟩
    rw [hk.2, h2.length]
    omega
  · rw [if_neg hle, h] at hs
    cases hs

/-! ## C36 -/

/-- The parser is modified by a failing parse: a `u32` on 3 bytes (and, in general, anything that reads more than one byte). -/
theorem c36_false : (match (parseU32 : P Slice U32) (Parser.new ⟨0, [1, 2, 3]⟩ demoCfg) with
    | ⟨.error (.err e), st, _⟩ => e == .eof && st.data.offset == 3 && st.data.buf == ⟨3, []⟩
    | _ => false) = true := by decide +kernel

/-- Also when the data is all there but refused: a READ body under an unsupported format has its pid and tid consumed. -/
theorem c36_refused_false : (match (parseRead : P Slice Read) (Parser.new ⟨0, [1, 0, 0, 0, 2, 0, 0, 0, 9]⟩
      { demoCfg with config := ⟨ConfigFlags.new (1#64 <<< 5) 0#64 false false 0#16, 0#64, 0#64⟩ }) with
    | ⟨.error (.err e), st, _⟩ => e.kind == .unsupportedConfig && st.data.offset == 8
    | _ => false) = true := by decide +kernel

/-- **C36** What holds: any parse that fails on exhausted input without having consumed anything. In particular every integer, array
or byte string parsed from an empty buffer, and `u8` always (`c36_u8_partial`). The configuration is never modified (C28). -/
theorem c36_partial {β : Type} [ParseBuf β] [LawfulEof β] {p : Parser β} (hp : RepP p f) (he : f.s.bytes = [])
    (hk : f.s.fin.kind = .eof) (n : Nat) :
    (P.array n p).res = .error (.err f.s.fin) ∧ RepP (P.array n p).st f ∧
    (P.bytes n p).res = .error (.err f.s.fin) ∧ RepP (P.bytes n p).st f ∧
    (P.rest p).res = .error (.err f.s.fin) ∧ RepP (P.rest p).st f := by
  obtain ⟨q, h1, h2, _⟩ := P.chunk_eof LawfulEof.eof_law hp he hk
  have ha : P.array n p = ⟨.error (.err f.s.fin), q, []⟩ := by
    unfold P.array; rw [P.bind_err h1]
  have hb : P.bytes n p = ⟨.error (.err f.s.fin), q, []⟩ := by
    unfold P.bytes P.bytesDirect
    rw [P.bind_err (P.bind_err h1)]
  have hr : P.rest p = ⟨.error (.err f.s.fin), q, []⟩ := by
    unfold P.rest; rw [P.bind_err h1]
  rw [ha, hb, hr]
  exact ⟨rfl, h2, rfl, h2, rfl, h2⟩

theorem c36_u8_partial {β : Type} [ParseBuf β] [LawfulEof β] {p : Parser β} (hp : RepP p f) (hk : f.s.fin.kind = .eof)
    {e : Fault} (h : ((parseU8 : P β U8) p).res = .error e) : RepP ((parseU8 : P β U8) p).st f := by
  by_cases he : f.s.bytes = []
  · obtain ⟨h1, h2, _⟩ := c36_partial hp he hk 1
    have : (parseU8 : P β U8) p = ⟨.error (.err f.s.fin), (P.array 1 p).st, (P.array 1 p).log⟩ := P.bind_err (P.run_eq _ h1)
    rw [this]
    exact h2
  · have h1 := (P.array_takes hp 1).1
    unfold TakesNe at h1
    rw [if_neg he] at h1
    obtain ⟨a, _, h2⟩ := h1
    unfold Takes at h2
    rw [if_pos (show 1 ≤ f.s.bytes.length from List.length_pos_iff.mpr he)] at h2
    have : (parseU8 : P β U8) p = _ := P.bind_ok (P.run_eq _ h2.1)
    rw [this] at h
    cases h

example : (match (parseU64 : P Slice U64) (Parser.new ⟨5, []⟩ demoCfg) with
    | ⟨.error (.err e), st, _⟩ => e == .eof && st.data.offset == 0 && st.data.buf == ⟨5, []⟩
    | _ => false) = true := by decide +kernel

end Perf
