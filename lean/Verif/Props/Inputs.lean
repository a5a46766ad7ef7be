import Verif.Proof.Fixed
/-!
# Concrete inputs

`RepP p f` ("the parser `p` stands at the flat input `f`") is the hypothesis of most property theorems. Here it is
established for every buffer type of the crate and every content, so that those theorems apply to all of them.
-/
namespace Perf

/-! ## Endianness settings of the crate -/

theorem ParseConfig.wf_native (c : RawParseConfig) (host : Order) : (ParseConfig.mk c (.native host) host).Wf :=
  fun _ _ _ => rfl

theorem ParseConfig.wf_little (c : RawParseConfig) (host : Order) : (ParseConfig.mk c (.little host) host).Wf := by
  intro h bs _
  cases host with
  | little => rfl
  | big => exact absurd h (show (Endian.little .big).isNative ≠ true by decide)

theorem ParseConfig.wf_big (c : RawParseConfig) (host : Order) : (ParseConfig.mk c (.big host) host).Wf := by
  intro h bs _
  cases host with
  | big => rfl
  | little => exact absurd h (show (Endian.big .little).isNative ≠ true by decide)

theorem ParseConfig.wf_dynamic (c : RawParseConfig) (o host : Order) : (ParseConfig.mk c (.dynamic o host) host).Wf := by
  intro h bs _
  cases o <;> cases host <;> first
    | rfl
    | exact absurd h (show (Endian.dynamic .little .big).isNative ≠ true by decide)
    | exact absurd h (show (Endian.dynamic .big .little).isNative ≠ true by decide)

/-! ## Buffers -/

/-- An in-memory slice. -/
theorem RepP.slice (addr : Nat) (data : List Byte) {cfg : ParseConfig} (hw : cfg.Wf) :
    RepP (Parser.new (⟨addr, data⟩ : Slice) cfg) ⟨⟨data, .at addr, .eof⟩, 0, cfg⟩ :=
  ⟨⟨rfl, rfl, rfl⟩, rfl, rfl, hw⟩

/-- The bytes a reader delivers before its first error or end of file. -/
def scriptBytes : List ReadEvent → List Byte
  | .data (b :: bs) :: es => (b :: bs) ++ scriptBytes es
  | _ => []

/-- The error met after those bytes. -/
def scriptFin : List ReadEvent → ParseError
  | .data (_ :: _) :: es => scriptFin es
  | .error e :: _ => .ofIo e
  | _ => .eof

theorem BufReader.script_spec : ∀ es : List ReadEvent, BufReader.Script es (scriptBytes es) (scriptFin es)
  | [] => .done
  | .data [] :: es => .eof es
  | .error e :: es => .error e es
  | .data (b :: bs) :: es => .data (b :: bs) es _ _ (by simp) (BufReader.script_spec es)

/-- A reader behind a `BufReader`, whatever its `read` calls return. -/
theorem RepP.reader (es : List ReadEvent) {cfg : ParseConfig} (hw : cfg.Wf) :
    RepP (Parser.new (⟨[], es⟩ : BufReader) cfg) ⟨⟨scriptBytes es, .temp, scriptFin es⟩, 0, cfg⟩ :=
  ⟨⟨scriptBytes es, BufReader.script_spec es, rfl⟩, rfl, rfl, hw⟩

/-- Nonempty borrowed pieces at arbitrary addresses. -/
theorem RepP.pieces (ps : List Slice) (h : ∀ p ∈ ps, p.data ≠ []) {cfg : ParseConfig} (hw : cfg.Wf) :
    RepP (Parser.new (⟨ps⟩ : ChunkBuf) cfg) ⟨⟨piecesData ps, .unknown, .eof⟩, 0, cfg⟩ := by
  refine ⟨⟨rfl, rfl, h, ?_⟩, rfl, rfl, hw⟩
  show ChunksAl .unknown (ps.map fun p => ⟨.external p.addr, p.data⟩)
  clear h
  induction ps with
  | nil => trivial
  | cons p ps ih => exact ⟨trivial, ih⟩

/-- Pieces whose addresses agree, modulo 8, with their position in the data (such as the two halves of a ring buffer
whose size is a multiple of 8). -/
theorem RepP.alignedPieces (n : Nat) (ps : List Slice) (h : ∀ p ∈ ps, p.data ≠ [])
    (hal : ChunksAl (.at n) (ps.map fun p => ⟨.external p.addr, p.data⟩)) {cfg : ParseConfig} (hw : cfg.Wf) :
    RepP (Parser.new (⟨ps⟩ : ChunkBuf) cfg) ⟨⟨piecesData ps, .at n, .eof⟩, 0, cfg⟩ :=
  ⟨⟨rfl, rfl, h, hal⟩, rfl, rfl, hw⟩

/-! ## A small example input -/

/-- A little endian source read on a little endian host, no flags. -/
def demoCfg : ParseConfig := ParseConfig.default (.little .little) .little

theorem demoCfg_wf : demoCfg.Wf := ParseConfig.wf_little _ _

/-- A `PERF_RECORD_LOST` with `id = 7`, `lost = 3`, followed by 3 bytes of something else. -/
def demoLost : List Byte :=
  [2, 0, 0, 0, 0, 0, 24, 0, 7, 0, 0, 0, 0, 0, 0, 0, 3, 0, 0, 0, 0, 0, 0, 0, 0xaa, 0xbb, 0xcc]

/-- A parser over those bytes at address 4096. -/
def demoLostParser : Parser Slice := Parser.new ⟨4096, demoLost⟩ demoCfg

/-- The flat input it stands at. -/
def demoLostFlat : Flat := ⟨⟨demoLost, .at 4096, .eof⟩, 0, demoCfg⟩

theorem demoLost_rep : RepP demoLostParser demoLostFlat := RepP.slice _ _ demoCfg_wf

end Perf
