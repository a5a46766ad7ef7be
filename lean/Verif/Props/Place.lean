import Verif.Proof.Place
import Verif.Proof.Encode
import Verif.Props.Inputs
import Verif.Props.Config
/-!
# C65: the address of the input matters modulo 8, and only in the host's byte order

These theorems cover every input and every outcome, also the ones for which the results depend on the address (C33).
-/
namespace Perf
variable {β : Type} [ParseBuf β] {O α T : Type}

/-! ## C65 -/

/-- The same result (value with its `Cow` variants, error or panic), the same memory requests, the same number of bytes consumed
and the same bytes left. -/
structure SameSliceRun (o o' : Out Slice α) : Prop where
  res : o.res = o'.res
  log : o.log = o'.log
  consumed : o.st.data.offset = o'.st.data.offset
  left : o.st.data.buf.data = o'.st.data.buf.data
  config : o.st.config = o'.st.config

/-- The same for pieces. -/
structure SamePiecesRun (o o' : Out ChunkBuf α) : Prop where
  res : o.res = o'.res
  log : o.log = o'.log
  consumed : o.st.data.offset = o'.st.data.offset
  left : o.st.data.buf.pieces.map Slice.data = o'.st.data.buf.pieces.map Slice.data
  config : o.st.config = o'.st.config

theorem TwinOut.slice {s : Bool} {o o' : Out Slice α} (h : TwinOut s Eq (Slice.Like s) Eq o o') : SameSliceRun o o' :=
  ⟨h.res.eq, h.log, h.st.offset, h.st.buf.1, h.st.config⟩

theorem PiecesLike.data {s : Bool} {as bs : List Slice} (h : PiecesLike s as bs) : as.map Slice.data = bs.map Slice.data := by
  induction h with
  | nil => rfl
  | cons h _ ih => rw [List.map_cons, List.map_cons, h.1, ih]

theorem TwinOut.pieces {s : Bool} {o o' : Out ChunkBuf α} (h : TwinOut s Eq (ChunkBuf.Like s) Eq o o') : SamePiecesRun o o' :=
  ⟨h.res.eq, h.log, h.st.offset, PiecesLike.data h.st.buf, h.st.config⟩

theorem PiecesLike.moved {s : Bool} : ∀ {ps qs : List Slice}, ps.map Slice.data = qs.map Slice.data →
    (s = true → ps.map (·.addr % 8) = qs.map (·.addr % 8)) → PiecesLike s ps qs
  | [], [], _, _ => .nil
  | [], _ :: _, h, _ => by cases h
  | _ :: _, [], h, _ => by cases h
  | p :: ps, q :: qs, h, h' => by
    rw [List.map_cons, List.map_cons] at h
    obtain ⟨h1, h2⟩ := List.cons.inj h
    refine .cons ⟨h1, fun hs => (List.cons.inj (h' hs)).1⟩ (PiecesLike.moved h2 fun hs => (List.cons.inj (h' hs)).2)

theorem TwinP.slices {s : Bool} {a b : Nat} {data : List Byte} {cfg : ParseConfig} (h : s = true → a % 8 = b % 8)
    (hf : s = false → cfg.endian.isNative = false) :
    TwinP s Eq (Slice.Like s) (Parser.new (⟨a, data⟩ : Slice) cfg) (Parser.new (⟨b, data⟩ : Slice) cfg) := ⟨⟨rfl, h⟩, rfl, rfl, hf⟩

theorem TwinP.moved {s : Bool} {ps qs : List Slice} {cfg : ParseConfig} (hd : ps.map Slice.data = qs.map Slice.data)
    (ha : s = true → ps.map (·.addr % 8) = qs.map (·.addr % 8)) (hf : s = false → cfg.endian.isNative = false) :
    TwinP s Eq (ChunkBuf.Like s) (Parser.new (⟨ps⟩ : ChunkBuf) cfg) (Parser.new (⟨qs⟩ : ChunkBuf) cfg) :=
  ⟨PiecesLike.moved hd ha, rfl, rfl, hf⟩

/-- **C65** A record in a slice: moving the slice by a multiple of 8 changes nothing. -/
theorem c65_slice (v : Visitor Cow O) (a b : Nat) (h : a % 8 = b % 8) (data : List Byte) (cfg : ParseConfig) :
    SameSliceRun (P.record v (Parser.new (⟨a, data⟩ : Slice) cfg)) (P.record v (Parser.new (⟨b, data⟩ : Slice) cfg)) :=
  (Twin.record (Slice.twin true) v _ _ (.slices (fun _ => h) nofun)).slice

/-- **C65** In a byte order other than the host's, any address will do. -/
theorem c65_slice_foreign (v : Visitor Cow O) (a b : Nat) (data : List Byte) (cfg : ParseConfig) (hf : cfg.endian.isNative = false) :
    SameSliceRun (P.record v (Parser.new (⟨a, data⟩ : Slice) cfg)) (P.record v (Parser.new (⟨b, data⟩ : Slice) cfg)) :=
  (Twin.record (Slice.twin false) v _ _ (.slices nofun fun _ => hf)).slice

/-- **C65** Input in several pieces (possibly empty ones): each piece may be moved on its own. -/
theorem c65_pieces (v : Visitor Cow O) (ps qs : List Slice) (hd : ps.map Slice.data = qs.map Slice.data)
    (ha : ps.map (·.addr % 8) = qs.map (·.addr % 8)) (cfg : ParseConfig) :
    SamePiecesRun (P.record v (Parser.new (⟨ps⟩ : ChunkBuf) cfg)) (P.record v (Parser.new (⟨qs⟩ : ChunkBuf) cfg)) :=
  (Twin.record (ChunkBuf.twin true) v _ _ (.moved hd (fun _ => ha) nofun)).pieces

/-- **C65** The same in a byte order other than the host's. -/
theorem c65_pieces_foreign (v : Visitor Cow O) (ps qs : List Slice) (hd : ps.map Slice.data = qs.map Slice.data)
    (cfg : ParseConfig) (hf : cfg.endian.isNative = false) :
    SamePiecesRun (P.record v (Parser.new (⟨ps⟩ : ChunkBuf) cfg)) (P.record v (Parser.new (⟨qs⟩ : ChunkBuf) cfg)) :=
  (Twin.record (ChunkBuf.twin false) v _ _ (.moved hd nofun fun _ => hf)).pieces

/-- **C65** Programs over the public interface, also ones that go on after an error: slices. -/
theorem c65_program (x : Prog α) (a b : Nat) (data : List Byte) (cfg : ParseConfig)
    (h : cfg.endian.isNative = true → a % 8 = b % 8) :
    SameSliceRun (x.run Slice (Parser.new (⟨a, data⟩ : Slice) cfg)) (x.run Slice (Parser.new (⟨b, data⟩ : Slice) cfg)) := by
  cases hn : cfg.endian.isNative with
  | true => exact (Twin.prog x (Slice.twin true) _ _ (.slices (fun _ => h hn) nofun)).slice
  | false => exact (Twin.prog x (Slice.twin false) _ _ (.slices nofun fun _ => hn)).slice

/-- **C65** Programs over the public interface: pieces. -/
theorem c65_program_pieces (x : Prog α) (ps qs : List Slice) (hd : ps.map Slice.data = qs.map Slice.data) (cfg : ParseConfig)
    (ha : cfg.endian.isNative = true → ps.map (·.addr % 8) = qs.map (·.addr % 8)) :
    SamePiecesRun (x.run ChunkBuf (Parser.new (⟨ps⟩ : ChunkBuf) cfg)) (x.run ChunkBuf (Parser.new (⟨qs⟩ : ChunkBuf) cfg)) := by
  cases hn : cfg.endian.isNative with
  | true => exact (Twin.prog x (ChunkBuf.twin true) _ _ (.moved hd (fun _ => ha hn) nofun)).pieces
  | false => exact (Twin.prog x (ChunkBuf.twin false) _ _ (.moved hd nofun fun _ => hn)).pieces

/-- A SAMPLE record with a call chain of one word, then four spare bytes. -/
def placedSample : List Byte :=
  [9, 0, 0, 0, 0, 0, 32, 0, 1, 0, 0, 0, 0, 0, 0, 0, 7, 0, 0, 0, 0, 0, 0, 0, 8, 0, 0, 0, 0, 0, 0, 0, 1, 2, 3, 4]
/-- Samples with call chains, read by a little endian machine. -/
def placedCfg : ParseConfig := { demoCfg with config := ⟨ConfigFlags.new 0#64 SampleFlags.CALLCHAIN false false 0#16, 0#64, 0#64⟩ }
/-- The call chain in the record found at address `a`. -/
def placedChain (a : Nat) (cfg : ParseConfig) : Option (Option (Cow U64)) :=
  match (P.parseRecord (Parser.new (⟨a, placedSample⟩ : Slice) cfg)).res with
  | .ok (.sample s) => some s.callchain
  | _ => none

/-- Addresses that differ modulo 8 do give different results in the host's order, so the condition is needed; and the results
that agree are not errors. -/
theorem c65_address_matters :
    placedChain 4096 placedCfg = some (some (.borrowed [7])) ∧ placedChain 8 placedCfg = some (some (.borrowed [7])) ∧
    placedChain 4097 placedCfg = some (some (.owned [8])) ∧ placedChain 9 placedCfg = some (some (.owned [8])) ∧
    placedChain 4099 { placedCfg with endian := Endian.little .big, host := .big } = some (some (.owned [7])) := by
  decide +kernel

/-- A program that reads a list after having run into the end of the input. -/
example : let x : Prog (Except ParseError Nat × List U64) := .attempt (.bytes 99 fun l => .done l.length) fun r => .words 1 fun l => .done (r, l)
    (x.run Slice (Parser.new (⟨8, placedSample⟩ : Slice) placedCfg)).res = .error (.err .eof) := rfl

/-! ## C33: what a misaligned list does -/

/-- **C33** Native data at an address that is not a multiple of 8: `parse_slice` skips the list it was asked for and parses the
same number of elements from what follows. This holds for every buffer, element type and element parser. -/
theorem c33_misaligned_skips (e : Elem T) (item : P β T) (n a : Nat) (d : List Byte) (p : Parser β)
    (hn : p.config.endian.isNative = true) (hlim : n * e.size < usizeLimit)
    (hc : (ParseBuf.chunk p.data).1 = .ok ⟨.external a, d⟩) (ha : a % 8 ≠ 0) (h0 : 0 < n * e.size) (hl : n * e.size ≤ d.length) :
    P.slice e item n p =
      (P.chunk >>= fun _ => P.advance (n * e.size) >>= fun _ => P.repeated e.size item n >>= fun v => pure (.owned v) : P β (Cow T)) p := by
  have hch : (P.chunk : P β Chunk) p = ⟨.ok ⟨.external a, d⟩, { p with data := (ParseBuf.chunk p.data).2 }, []⟩ := by
    unfold P.chunk; rw [hc]
  rw [P.bind_nil hch]
  generalize hq : ({ p with data := (ParseBuf.chunk p.data).2 } : Parser β) = q at hch
  have hd : d.take (n * e.size) ≠ [] := by
    intro h
    have := congrArg List.length h
    rw [List.length_take, List.length_nil] at this
    omega
  have hdir : ∀ r, P.advance (n * e.size) q = r → P.bytesDirect (n * e.size) p =
      ⟨r.res.map fun _ => some (a, d.take (n * e.size)), r.st, r.log⟩ := by
    rintro r rfl
    unfold P.bytesDirect
    rw [P.bind_nil hch]
    show (if d.length < n * e.size then pure none else P.advance (n * e.size) >>= fun _ => pure (some (a, d.take (n * e.size))) : P β _) q = _
    rw [P.ite_neg (by omega)]
    rcases hr : (P.advance (n * e.size) q).res with er | u
    · rw [P.bind_err (P.run_eq _ hr)]; rfl
    · rw [P.bind_ok (P.run_eq _ hr)]
      show Out.mk _ _ (_ ++ []) = _
      rw [List.append_nil]; rfl
  have hsd : ∀ r, P.advance (n * e.size) q = r → P.sliceDirect e n p = ⟨r.res.map fun _ => none, r.st, r.log⟩ := by
    intro r hr
    have h1 := hdir r hr
    unfold P.sliceDirect
    rw [P.bind_nil (show (P.config : P β ParseConfig) p = ⟨.ok p.config, p, []⟩ from rfl), P.ite_neg (by rw [hn]; decide),
      P.ite_neg (by omega)]
    rcases hr' : r.res with er | u <;> rw [hr'] at h1
    · rw [P.bind_err h1]; rfl
    · rw [P.bind_ok h1]
      dsimp only
      rw [if_neg (by rintro (h | h) <;> contradiction)]
      show Out.mk _ _ (_ ++ []) = _
      rw [List.append_nil]; rfl
  have h2 := hsd _ rfl
  unfold P.slice
  rcases hr : (P.advance (n * e.size) q).res with er | u <;> rw [hr] at h2
  · rw [P.bind_err h2, P.bind_err (P.run_eq _ hr)]
  · rw [P.bind_ok h2, P.bind_ok (P.run_eq _ hr)]

/-- **C33** In bytes: `parse_slice::<u64>` at a misaligned address, asked for the words `ws`, returns the words `vs` after them. -/
theorem c33_misaligned_words (o : Order) (a : Nat) (ws vs : List U64) (tl : List Byte) (cfg : ParseConfig) (hs : Src cfg o) (hw : cfg.Wf)
    (hn : cfg.endian.isNative = true) (ha : a % 8 ≠ 0) (h0 : ws ≠ []) (hv : vs.length = ws.length) (hlim : ws.length * 8 < usizeLimit) :
    (P.slice U64.elem parseU64 ws.length
      (Parser.new (⟨a, ws.flatMap (e64 o) ++ (vs.flatMap (e64 o) ++ tl)⟩ : Slice) cfg)).res = .ok (.owned vs) := by
  have hwl := flatMap_e64_length o ws
  have hpos := List.length_pos_iff.mpr h0
  have hne : ws.flatMap (e64 o) ++ (vs.flatMap (e64 o) ++ tl) ≠ [] := by
    intro h
    have := congrArg List.length h
    rw [List.length_append, List.length_nil] at this
    omega
  rw [c33_misaligned_skips U64.elem parseU64 ws.length a (ws.flatMap (e64 o) ++ (vs.flatMap (e64 o) ++ tl)) _ hn hlim
    (if_neg hne) ha (by show 0 < _ * 8; omega)
    (by show _ * 8 ≤ _; rw [List.length_append]; omega)]
  rw [P.bind_nil (show P.chunk (Parser.new (⟨a, ws.flatMap (e64 o) ++ (vs.flatMap (e64 o) ++ tl)⟩ : Slice) cfg) =
    ⟨.ok ⟨.external a, ws.flatMap (e64 o) ++ (vs.flatMap (e64 o) ++ tl)⟩,
      Parser.new (⟨a, ws.flatMap (e64 o) ++ (vs.flatMap (e64 o) ++ tl)⟩ : Slice) cfg, []⟩ by
    unfold P.chunk
    rw [show (ParseBuf.chunk (Parser.new (⟨a, ws.flatMap (e64 o) ++ (vs.flatMap (e64 o) ++ tl)⟩ : Slice) cfg).data).1 =
      .ok ⟨.external a, ws.flatMap (e64 o) ++ (vs.flatMap (e64 o) ++ tl)⟩ from if_neg hne]
    rfl)]
  have hadv : P.advance (ws.length * U64.elem.size) (Parser.new (⟨a, ws.flatMap (e64 o) ++ (vs.flatMap (e64 o) ++ tl)⟩ : Slice) cfg) =
      ⟨.ok (), ⟨cfg, ⟨⟨a + ws.length * 8, vs.flatMap (e64 o) ++ tl⟩, ws.length * 8⟩⟩, []⟩ := by
    unfold P.advance
    have : ParseBuf.advance (Parser.new (⟨a, ws.flatMap (e64 o) ++ (vs.flatMap (e64 o) ++ tl)⟩ : Slice) cfg).data (ws.length * U64.elem.size) =
        some ⟨⟨a + ws.length * 8, vs.flatMap (e64 o) ++ tl⟩, ws.length * 8⟩ := by
      show Option.map _ (if _ then _ else _) = _
      rw [if_pos (by
        show _ * 8 ≤ (ws.flatMap (e64 o) ++ (vs.flatMap (e64 o) ++ tl)).length
        rw [List.length_append]; omega)]
      show some (Tracking.mk (Slice.mk _ (List.drop (ws.length * 8) (ws.flatMap (e64 o) ++ (vs.flatMap (e64 o) ++ tl)))) (0 + ws.length * 8)) = _
      rw [List.drop_left' (by omega), Nat.zero_add]
      rfl
    rw [this]
    rfl
  rw [P.bind_nil hadv]
  have hp : RepP (⟨cfg, ⟨⟨a + ws.length * 8, vs.flatMap (e64 o) ++ tl⟩, ws.length * 8⟩⟩ : Parser Slice)
      ⟨⟨vs.flatMap (e64 o) ++ tl, .at (a + ws.length * 8), .eof⟩, ws.length * 8, cfg⟩ :=
    ⟨(RepP.slice (a + ws.length * 8) (vs.flatMap (e64 o) ++ tl) hw).rep, rfl, rfl, hw⟩
  have h1 := Refines.repeated U64.elem.size Refines.u64 ws.length _ _ hp
  have h2 := Reads.repeated (cfg := cfg) (nd := ⟨false, false⟩) (item := parseU64) (en := e64 o) (fun x k tl => Reads.u64 hs x) vs 0 tl
    ⟨⟨vs.flatMap (e64 o) ++ tl, .at (a + ws.length * 8), .eof⟩, ws.length * 8, cfg⟩ rfl nofun nofun rfl
  rw [hv] at h2
  rw [h2] at h1
  obtain ⟨l, h3, h4, -⟩ := h1
  rw [P.bind_ok (P.run_eq _ h3), h4]
  rfl

/-- Three words at address 4: asked for the first, `parse_slice` returns the second. -/
example : (P.slice U64.elem parseU64 1 (Parser.new (⟨4, [1, 2, 3].flatMap (e64 .little)⟩ : Slice) demoCfg)).res = .ok (.owned [2]) :=
  c33_misaligned_words .little 4 [1] [2] (e64 .little 3) demoCfg (Src.of _ rfl rfl rfl) (fun _ _ _ => rfl) rfl (by decide) nofun rfl (by decide)

end Perf
