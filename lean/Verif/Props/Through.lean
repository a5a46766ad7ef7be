import Verif.Proof.Drip
import Verif.Props.User
import Verif.Props.Piped

/-! C90: what a program of its own sees through a reader.

C86 says so of records. Here the program may call any method of the parser, in any order, look at what it read, go on after errors and open
records itself. Its spec (`Spec/Drip.lean`) knows no chunks, no addresses and no buffer: it takes the bytes, the configuration, and nothing
else.
-/
set_option linter.unusedSectionVars false

namespace Perf
variable {α : Type} {cfg : ParseConfig}

section
variable {β γ : Type} [ParseBuf β] [ParseBuf γ]

/-- **C90** Over every buffer that hands out temporary chunks only and whose end is an end: what the program returns, its errors included, is a
function of the bytes and the configuration. -/
theorem c90_temporary [LawfulEof β] (prog : Prog α) {p : Parser β} {f : Flat} (hp : RepP p f) (ht : f.s.al = .temp) (hk : f.s.fin.kind = .eof) :
    (prog.run β p).res = (prog.drip f).1 := (Drips.prog prog β p f ⟨hp, ht⟩ hk).1

/-- **C90** For a `BufReader` that ends: the portions in which the bytes arrive do not matter, for any program. -/
theorem c90_reader (prog : Prog α) {es : List ReadEvent} (hs : Settles es) (he : (scriptFin es).kind = .eof) (hw : cfg.Wf) :
    (prog.run BufReader (Parser.new ⟨[], es⟩ cfg)).res = (prog.drip (.through (scriptBytes es) .eof cfg)).1 := by
  have h := @c90_temporary α BufReader _ BufReader.settled prog _ _ (RepP.settled hs hw) rfl he
  rw [h, settled_eof hs he]

/-- **C90** The same without the spec: two readers that end and deliver the same bytes answer every program alike. -/
theorem c90_portions (prog : Prog α) {es fs : List ReadEvent} (hs : Settles es) (hs' : Settles fs) (he : (scriptFin es).kind = .eof)
    (he' : (scriptFin fs).kind = .eof) (hb : scriptBytes es = scriptBytes fs) (hw : cfg.Wf) :
    (prog.run BufReader (Parser.new ⟨[], es⟩ cfg)).res = (prog.run BufReader (Parser.new ⟨[], fs⟩ cfg)).res := by
  rw [c90_reader prog hs he hw, c90_reader prog hs' he' hw, hb]

/-- **C90** What the bytes say is a value or an error of the crate, never a panic. -/
theorem c90_returns (prog : Prog α) (bytes : List Byte) (hw : cfg.Wf) : Returns (prog.drip (.through bytes .eof cfg)).1 := by
  have h := c63_reader prog [.data bytes] cfg hw
  have e : Settles [.data bytes] := by cases bytes with
    | nil => intro e h; cases h
    | cons => trivial
  have k : scriptFin [.data bytes] = .eof := by cases bytes <;> rfl
  have b : scriptBytes [.data bytes] = bytes := by cases bytes with
    | nil => rfl
    | cons x xs => exact List.append_nil (x :: xs)
  rw [c90_reader prog e (by rw [k]; rfl) hw, b] at h
  exact h

/-- **C90** And the parser is left where the bytes say, after an error too. -/
theorem c90_position (prog : Prog α) {es : List ReadEvent} (hs : Settles es) (he : (scriptFin es).kind = .eof) (hw : cfg.Wf) :
    @RepP BufReader _ BufReader.settled.toLawful (prog.run BufReader (Parser.new ⟨[], es⟩ cfg)).st
      (prog.drip (.through (scriptBytes es) .eof cfg)).2 := by
  have h := @Drips.prog α prog BufReader _ BufReader.settled _ _ (@Fed.mk BufReader _ BufReader.settled.toLawful _ _ (RepP.settled hs hw) rfl) he
  rw [settled_eof hs he] at h
  refine @Fed.rep BufReader _ BufReader.settled.toLawful _ _ (h.2 fun e hx => ?_).1
  have h1 := c90_returns prog (scriptBytes es) hw
  rw [hx] at h1
  rcases h1 with ⟨_, h1⟩ | ⟨x, h1⟩
  · cases h1
  · exact ⟨x, by cases h1; rfl⟩

/-- **C90** For readers that fail, or that deliver more after they reported the end: a program that stops at the first error and reads to the
end only inside of records sees the bytes before the first end or error, then that error. -/
theorem c90_straight [Lawful β] (prog : Prog α) (h : prog.Straight) {p : Parser β} {f : Flat} (hp : RepP p f) (ht : f.s.al = .temp) :
    (prog.run β p).res = prog.pipe.result f := by
  have h1 := Pours.prog prog h β p f ⟨hp, ht⟩
  unfold Piped.result
  rcases hs : prog.pipe f with e | ⟨a, f'⟩ <;> rw [hs] at h1
  · exact h1
  · exact h1.1

theorem c90_straight_reader (prog : Prog α) (h : prog.Straight) (es : List ReadEvent) (hw : cfg.Wf) :
    (prog.run BufReader (Parser.new ⟨[], es⟩ cfg)).res = prog.pipe.result (.through (scriptBytes es) (scriptFin es) cfg) :=
  c90_straight prog h (RepP.reader es hw) rfl

/-- **C90** Two readers with the same bytes and the same error behind them, whatever they do later. -/
theorem c90_straight_portions (prog : Prog α) (h : prog.Straight) (es fs : List ReadEvent) (hb : scriptBytes es = scriptBytes fs)
    (he : scriptFin es = scriptFin fs) (hw : cfg.Wf) :
    (prog.run BufReader (Parser.new ⟨[], es⟩ cfg)).res = (prog.run BufReader (Parser.new ⟨[], fs⟩ cfg)).res := by
  rw [c90_straight_reader prog h es hw, c90_straight_reader prog h fs hw, hb, he]

end

/-! ## Cases -/

/-- One word, then a byte (`wordThenByte`): from memory the answer depends on the address (`c63_words_false`); through readers of the same
bytes, in one, two or seventeen portions, it is always the same, and it is what the bytes say. -/
theorem c90_words :
    ([[.data [1, 0, 0, 0, 0, 0, 0, 0, 2, 0, 0, 0, 0, 0, 0, 0, 3]],
      [.data [1, 0, 0], .data [0, 0, 0, 0, 0, 2, 0, 0, 0, 0, 0, 0, 0, 3]],
      [1, 0, 0, 0, 0, 0, 0, 0, 2, 0, 0, 0, 0, 0, 0, 0, 3].map fun b => .data [b]].all fun es =>
      match (wordThenByte.run BufReader (Parser.new ⟨[], es⟩ demoCfg)).res with
      | .ok (w, b) => w == [1#64] && b == 2#8
      | _ => false) = true ∧
    (match (wordThenByte.drip (.through [1, 0, 0, 0, 0, 0, 0, 0, 2, 0, 0, 0, 0, 0, 0, 0, 3] .eof demoCfg)).1 with
      | .ok (w, b) => w == [1#64] && b == 2#8
      | _ => false) = true := by decide +kernel

/-- `wordThenByte` stops at the first error. -/
example : wordThenByte.Straight := fun _ _ => trivial

/-- Eight words, then a record, then the rest, going on after each error. -/
def stumble : Prog (Bool × Bool × List Byte) :=
  .attempt (.words 8 .done) fun a => .attempt (.record .done) fun r => .attempt (.rest .done) fun b =>
    .done ((match a with | .ok _ => true | .error _ => false), (match r with | .ok (.lost _) => true | _ => false),
      match b with | .ok l => l | .error _ => [9, 9])

/-- Enough bytes: the words, the record, the rest (three bytes of a next record in `demoLost`, and two more). Not enough: the words are refused
and nothing is left. The same in any portions. -/
theorem c90_stumble :
    ([[.data (List.replicate 64 1 ++ demoLost ++ [7, 8])],
      [.data (List.replicate 63 1), .data [1], .data (demoLost.take 3), .data (demoLost.drop 3 ++ [7]), .data [8]]].all fun es =>
      match (stumble.run BufReader (Parser.new ⟨[], es⟩ demoCfg)).res with
      | .ok (a, r, b) => a && r && b == [0xaa, 0xbb, 0xcc, 7, 8]
      | _ => false) = true ∧
    ([[.data (demoLost ++ [7, 8])], [.data (demoLost.take 3), .data (demoLost.drop 3 ++ [7]), .data [8]]].all fun es =>
      match (stumble.run BufReader (Parser.new ⟨[], es⟩ demoCfg)).res with
      | .ok (a, r, b) => !a && !r && b == [9, 9]
      | _ => false) = true := by decide +kernel

/-- The readers of these cases meet the hypotheses. -/
example : Settles [.data (List.replicate 63 1), .data [1], .data (demoLost.take 3), .data (demoLost.drop 3 ++ [7]), .data [8]] ∧
    (scriptFin [.data (List.replicate 63 1), .data [1], .data (demoLost.take 3), .data (demoLost.drop 3 ++ [7]), .data [8]]).kind = .eof :=
  ⟨trivial, rfl⟩

/-- Without `Settles` it fails: a reader that goes on after it reported the end is not told from its bytes up to there by a program that
stops, but by one that goes on. -/
theorem c90_unsettled :
    scriptBytes [.data [1], .data [], .data [2]] = scriptBytes [.data [1]] ∧ scriptFin [.data [1], .data [], .data [2]] = scriptFin [.data [1]] ∧
    (match ((Prog.attempt (.u16 .done) fun _ => .attempt (.u8 .done) .done).run BufReader
          (Parser.new ⟨[], [.data [1], .data [], .data [2]]⟩ demoCfg)).res,
        ((Prog.attempt (.u16 .done) fun _ => .attempt (.u8 .done) .done).run BufReader (Parser.new ⟨[], [.data [1]]⟩ demoCfg)).res with
      | .ok (.ok b), .ok (.error e) => b == 2#8 && e == .eof
      | _, _ => false) = true := by decide +kernel

end Perf
