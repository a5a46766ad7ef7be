import Verif.Proof.Moored
import Verif.Proof.Steady
import Verif.Props.Through
import Verif.Props.Place
import Verif.Props.User
import Verif.Props.Attr

/-! C91: what a program of its own sees in memory.

C70 says so of records. Here the program may call any method of the parser, in any order, look at what it read, go on after errors and open
records itself. Its spec (`Spec/Moored.lean`) knows no chunks and no buffer: it takes the bytes, their address, and the configuration.
-/
namespace Perf
variable {α : Type} {cfg : ParseConfig} {β : Type} [ParseBuf β] [LawfulEof β] {F : List Byte → β → Prop}

/-- **C91** Over every buffer that hands out its data as one borrowed chunk (a slice, a region of a record in a slice): what the program
returns, its errors included, is a function of the bytes, the address and the configuration. -/
theorem c91_one_piece (prog : Prog α) (h : OneBuf F) {p : Parser β} {f : Flat} (hp : At F p f) : (prog.run β p).res = (prog.moored f).1 :=
  (Holds.prog prog β F h p f hp).1

/-- **C91** For a slice. -/
theorem c91_slice (prog : Prog α) (addr : Nat) (data : List Byte) (hw : cfg.Wf) :
    (prog.run Slice (Parser.new ⟨addr, data⟩ cfg)).res = (prog.moored (.here addr data cfg)).1 :=
  c91_one_piece prog OneBuf.slice (At.slice addr data hw)

/-- **C91** What the bytes and the address say is a value or an error of the crate, never a panic. -/
theorem c91_returns (prog : Prog α) (addr : Nat) (data : List Byte) (hw : cfg.Wf) : Returns (prog.moored (.here addr data cfg)).1 := by
  rw [← c91_slice prog addr data hw]
  exact c63_slice prog addr data cfg hw

/-- **C91** And the parser is left where they say, after an error too. -/
theorem c91_position (prog : Prog α) (addr : Nat) (data : List Byte) (hw : cfg.Wf) :
    At (fun d (s : Slice) => s.data = d) (prog.run Slice (Parser.new ⟨addr, data⟩ cfg)).st (prog.moored (.here addr data cfg)).2 := by
  refine (Holds.prog prog Slice _ OneBuf.slice _ _ (At.slice addr data hw)).2 fun e he => ?_
  have h := c91_returns prog addr data hw
  rw [he] at h
  rcases h with ⟨_, h⟩ | ⟨x, h⟩
  · cases h
  · exact ⟨x, by cases h; rfl⟩

/-- In numbers: the bytes that are left, the count of consumed bytes, and the configuration. -/
theorem c91_left (prog : Prog α) (addr : Nat) (data : List Byte) (hw : cfg.Wf) :
    let o := prog.run Slice (Parser.new ⟨addr, data⟩ cfg)
    let f := (prog.moored (.here addr data cfg)).2
    o.st.data.buf.data = f.s.bytes ∧ o.st.data.offset = f.off ∧ o.st.config = f.cfg := by
  have h := (c91_position prog addr data hw).rep
  exact ⟨h.rep.1.symm, h.off, h.cfg⟩

/-- **C91** Of the address only the remainder modulo 8 counts, and in a foreign byte order nothing. -/
theorem c91_address (prog : Prog α) (a b : Nat) (data : List Byte) (hw : cfg.Wf) (h : cfg.endian.isNative = true → a % 8 = b % 8) :
    (prog.moored (.here a data cfg)).1 = (prog.moored (.here b data cfg)).1 := by
  rw [← c91_slice prog a data hw, ← c91_slice prog b data hw]
  exact (c65_program prog a b data cfg h).res

/-! ## A foreign byte order

Then `parse_slice` copies word by word wherever the bytes live, so that C63 holds for programs that read lists and records as well. TEXT_POKE
records are excluded, whose halves depend on whether they were borrowed (B7). -/

/-- No eight of the bytes, taken as a header, announce a TEXT_POKE record. -/
def NoPoke (cfg : ParseConfig) (bytes : List Byte) : Prop :=
  ∀ i, i + 8 ≤ bytes.length → (cfg.endian.conv32 ((bytes.drop i).take 4)).toNat ≠ 20

instance (cfg : ParseConfig) (bytes : List Byte) : Decidable (NoPoke cfg bytes) :=
  decidable_of_iff (∀ i < bytes.length, i + 8 ≤ bytes.length → (cfg.endian.conv32 ((bytes.drop i).take 4)).toNat ≠ 20)
    ⟨fun h i hi => h i (by omega) hi, fun h i _ hi => h i hi⟩

/-- **C63** In a foreign byte order, over any two buffers that keep reporting their end: every program that asks for no TEXT_POKE record answers
alike on the same bytes, wherever they live and however they are cut, and also when it goes on after errors. -/
theorem c63_foreign {γ : Type} [ParseBuf γ] [LawfulEof γ] {p : Parser β} {q : Parser γ} {f g : Flat} (prog : Prog α) (hs : prog.Steady)
    (hp : RepP p f) (hq : RepP q g) (h : SameBytes f g) (hk : f.s.fin.kind = .eof) (hf : f.cfg.endian.isNative = false)
    (hn : NoPoke f.cfg f.s.bytes) : (prog.run β p).res = (prog.run γ q).res := by
  have pf : Placid f := ⟨hf, hn⟩
  have pg : Placid g := ⟨by unfold Foreign; rw [← h.cfg]; exact hf, by unfold Pokeless; rw [← h.cfg, ← h.bytes]; exact hn⟩
  obtain ⟨_, _, h1, _⟩ := Goes.prog prog hs f pf
  obtain ⟨_, _, h2, _⟩ := Goes.prog prog hs g pg
  exact c63_recover_partial prog LawfulEof.eof_law LawfulEof.eof_law hp hq h hk (by rw [h1]; nofun) (by rw [h2]; nofun)

/-- In the open: memory at any address against a reader with any portions. -/
theorem c63_foreign_reader (prog : Prog α) (hs : prog.Steady) (addr : Nat) {es : List ReadEvent} (he : Settles es)
    (hk : (scriptFin es).kind = .eof) (hw : cfg.Wf) (hf : cfg.endian.isNative = false) (hn : NoPoke cfg (scriptBytes es)) :
    (prog.run Slice (Parser.new ⟨addr, scriptBytes es⟩ cfg)).res = (prog.run BufReader (Parser.new ⟨[], es⟩ cfg)).res :=
  @c63_foreign α Slice _ _ BufReader _ BufReader.settled _ _ _ _ prog hs (RepP.slice addr _ hw) (RepP.settled he hw)
    ⟨rfl, (settled_eof he hk).symm, rfl⟩ rfl hf hn

/-- Memory at any address against the same bytes in nonempty pieces at any addresses. -/
theorem c63_foreign_pieces (prog : Prog α) (hs : prog.Steady) (addr : Nat) (ps : List Slice) (h : ∀ p ∈ ps, p.data ≠ []) (hw : cfg.Wf)
    (hf : cfg.endian.isNative = false) (hn : NoPoke cfg (piecesData ps)) :
    (prog.run Slice (Parser.new ⟨addr, piecesData ps⟩ cfg)).res = (prog.run ChunkBuf (Parser.new ⟨ps⟩ cfg)).res :=
  c63_foreign prog hs (RepP.slice addr _ hw) (RepP.pieces ps h hw) ⟨rfl, rfl, rfl⟩ rfl hf hn

/-- Words by `parse_slice`, a record, and again words where there are too few. -/
def mixed : Prog (List U64 × Bool × Bool × Option (List U64)) :=
  .words 1 fun w => .record fun r => .attempt (.words 8 .done) fun x => .call (.direct 1) fun d =>
    .done (w, (match r with | .namespaces n => n.namespaces == [⟨5#64, 6#64⟩] | _ => false), (match x with | .ok _ => true | .error _ => false), d)

theorem mixed_steady : mixed.Steady := fun _ _ => ⟨fun _ => trivial, fun _ => ⟨trivial, fun _ => trivial⟩⟩

/-- One word and a NAMESPACES record, in the order of a big-endian machine, with seven bytes behind. -/
def mixedData : List Byte :=
  [0, 0, 0, 0, 0, 0, 0, 1, 0, 0, 0, 16, 0, 0, 0, 40, 0, 0, 0, 2, 0, 0, 0, 3, 0, 0, 0, 0, 0, 0, 0, 1,
    0, 0, 0, 0, 0, 0, 0, 5, 0, 0, 0, 0, 0, 0, 0, 6, 1, 1, 1, 1, 1, 1, 1]

/-- The hypotheses are met, and the answers are: all read, at any address and in portions. -/
theorem c63_foreign_case : demoAttrCfg.endian.isNative = false ∧ NoPoke demoAttrCfg mixedData ∧
    ([0, 1, 7].all fun a => match (mixed.run Slice (Parser.new ⟨a, mixedData⟩ demoAttrCfg)).res with
      | .ok (w, n, x, d) => w == [1#64] && n && !x && d == none
      | _ => false) = true ∧
    (match (mixed.run BufReader (Parser.new ⟨[], [.data (mixedData.take 5), .data (mixedData.drop 5)]⟩ demoAttrCfg)).res with
      | .ok (w, n, x, d) => w == [1#64] && n && !x && d == none
      | _ => false) = true := by decide +kernel

/-- Without `NoPoke` it fails: a TEXT_POKE record of four new bytes, from memory and through a reader. -/
theorem c63_foreign_false :
    let prog : Prog (List Byte) := .record fun r => .done (match r with | .textPoke t => t.newBytes | _ => [])
    let bs : List Byte := [0, 0, 0, 20, 0, 0, 0, 24, 0, 0, 0, 0, 0, 0, 0, 1, 0, 0, 0, 4, 0xa, 0xb, 0xc, 0xd]
    ¬ NoPoke demoAttrCfg bs ∧
    (match (prog.run Slice (Parser.new ⟨8, bs⟩ demoAttrCfg)).res, (prog.run BufReader (Parser.new ⟨[], [.data bs]⟩ demoAttrCfg)).res with
      | .ok a, .ok b => a == [0xa, 0xb, 0xc, 0xd] && b == []
      | _, _ => false) = true := by decide +kernel

/-! ## Cases -/

/-- One word by `parse_slice`, then a byte, at all eight remainders: only at a multiple of 8 the word is the first one (B2). -/
theorem c91_words :
    ([0, 1, 2, 3, 4, 5, 6, 7, 8].all fun a =>
      match (wordThenByte.moored (.here a [1, 0, 0, 0, 0, 0, 0, 0, 2, 0, 0, 0, 0, 0, 0, 0, 3] demoCfg)).1 with
      | .ok (w, b) => w == (if a % 8 = 0 then [1#64] else [2#64]) && b == (if a % 8 = 0 then 2#8 else 3#8)
      | _ => false) = true := by decide +kernel

/-- Words, a record, the rest, going on after errors (`stumble`): at a multiple of 8 as through a reader (`c90_stumble`); elsewhere the
words are looked for in the record and what follows it (B2), which are too few, and nothing is left for the others. -/
theorem c91_stumble :
    (match (stumble.run Slice (Parser.new ⟨16, List.replicate 64 1 ++ demoLost ++ [7, 8]⟩ demoCfg)).res,
        (stumble.moored (.here 16 (List.replicate 64 1 ++ demoLost ++ [7, 8]) demoCfg)).1 with
      | .ok (a, r, b), .ok (a', r', b') => a && r && b == [0xaa, 0xbb, 0xcc, 7, 8] && a' && r' && b' == b
      | _, _ => false) = true ∧
    (match (stumble.run Slice (Parser.new ⟨17, List.replicate 64 1 ++ demoLost ++ [7, 8]⟩ demoCfg)).res,
        (stumble.moored (.here 17 (List.replicate 64 1 ++ demoLost ++ [7, 8]) demoCfg)).1 with
      | .ok (a, r, b), .ok (a', r', b') => !a && !r && b == [9, 9] && !a' && !r' && b' == b
      | _, _ => false) = true := by decide +kernel

/-- A program that opens a record by hand (`skim`), at an odd address. -/
example : (match (skim.moored (.here 3 skimData demoCfg)).1 with
    | .ok (t, e, b) => t == 1#32 && e == some ⟨7#64, 8#64⟩ && b
    | _ => false) = true := by decide +kernel

end Perf
