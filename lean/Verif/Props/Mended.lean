import Verif.Proof.IRoundTrip
import Verif.Proof.IPlain
import Verif.Props.NativeFlag
import Verif.Props.Layouts
import Verif.Props.Content
import Verif.Props.Session
/-!
# C84: with the functions of Model/Mended.lean corrected, the properties hold without exception

`Mend.record` is `Parser::parse_record` with the corrections listed in Model/Mended.lean. It is not the code of /repo. The
theorems say that the corrections suffice: C02, C75 and the round trip of C10 hold for it without the conditions the theorems about
the crate need, and nothing that the crate reads correctly is read differently.
-/
namespace Perf
variable {β γ : Type} [ParseBuf β] [Lawful β] [ParseBuf γ] [Lawful γ] {O : Type} {p : Parser β} {q : Parser γ} {f g : Flat}
  {o : Order} {tl : List Byte}

/-! ## The outcome is a function of the bytes -/

theorem MendedOk.same {v : Visitor Cow O} {x y : Except Fault O} {r : Except ParseError (Record List × Metadata)} (hx : MendedOk v x r)
    (hy : MendedOk v y r) : SameOutcome v x y := by
  rcases r with e | ⟨rec, md⟩
  · exact .inl ⟨e, hx, hy⟩
  · obtain ⟨a, h1, h2⟩ := hx
    obtain ⟨b, h3, h4⟩ := hy
    exact .inr ⟨a, b, md, h1.trans h3.symm, h2, h4⟩

/-- **C84** C02 without `Settled`: for every two buffers with the same contents, wherever their data lives and however it is cut,
`parse_record` does the same. -/
theorem c84_chunking (hp : RepP p f) (hq : RepP q g) (h : SameBytes f g) (v : Visitor Cow O) :
    SameOutcome v (Mend.record v p).res (Mend.record v q).res := by
  refine (Mend.record_run hp v).1.same ?_
  have h1 : f.input.plain 0 = g.input.plain 0 := by
    simp only [Input.plain, Flat.input, h.bytes, h.fin, h.cfg]
  rw [← Ideal.record_plain f.input 0, h1, Ideal.record_plain]
  exact (Mend.record_run hq v).1

/-- **C84** C75 without exceptions: `Endian::is_native` does not change the outcome. -/
theorem c84_native (hp : RepP p f) (v : Visitor Cow O) :
    SameOutcome v (Mend.record v p).res (Mend.record v (p.reconfigured p.config.plain)).res := by
  refine (Mend.record_run hp v).1.same ?_
  have h1 := (Mend.record_run hp.plain v).1
  rw [← Ideal.record_plain f.input f.off]
  exact h1

/-- **C84** A slice at any address, a reader whose `read` calls return the same bytes in any portions before the end of the file, and
slices in any number of pieces at any addresses: the same. -/
theorem c84_inputs (a : Nat) (d : List Byte) (es : List ReadEvent) (hes : scriptBytes es = d) (hfin : scriptFin es = .eof)
    (ps : List Slice) (hne : ∀ s ∈ ps, s.data ≠ []) (hps : piecesData ps = d) {cfg : ParseConfig} (hw : cfg.Wf) (v : Visitor Cow O) :
    SameOutcome v (Mend.record v (Parser.new (⟨a, d⟩ : Slice) cfg)).res (Mend.record v (Parser.new (⟨[], es⟩ : BufReader) cfg)).res ∧
    SameOutcome v (Mend.record v (Parser.new (⟨a, d⟩ : Slice) cfg)).res (Mend.record v (Parser.new (⟨ps⟩ : ChunkBuf) cfg)).res :=
  ⟨c84_chunking (RepP.slice a d hw) (RepP.reader es hw) ⟨hes.symm, hfin.symm, rfl⟩ v,
    c84_chunking (RepP.slice a d hw) (RepP.pieces ps hne hw) ⟨hps.symm, rfl, rfl⟩ v⟩

/-- **C84** C01 for the corrected functions: an error or whatever the visitor returns, never a panic or an endless loop. -/
theorem c84_total (hp : RepP p f) (v : Visitor Cow O) :
    (∃ e, (Mend.record v p).res = .error (.err e)) ∨ ∃ a md, (Mend.record v p).res = v.apply a md := by
  have h := (Mend.record_run hp v).1
  rcases hr : Ideal.record f.input with e | ⟨rec, md⟩ <;> rw [hr] at h
  · exact .inl ⟨e, h⟩
  · obtain ⟨a, -, h⟩ := h
    exact .inr ⟨a, md, h⟩

/-! ## Everything the kernel writes is read -/

/-- **C84** The round trip of C10 for every record the kernel writes, in any byte order, at any address, however it is cut: the visitor
is given the record and its metadata, and the parser stands behind the record. -/
theorem c84_round_trip (hp : RepP p f) (hs : Src f.cfg o) (r : KRecord) (hw : r.body.Written f.cfg r.misc)
    (hsize : r.sizeAll o f.cfg < 65536) (hb : f.s.bytes = r.encAll o f.cfg ++ tl) (v : Visitor Cow O) :
    (∃ a : Record Cow, a.view = r.body.value f.cfg r.misc ∧ (Mend.record v p).res = v.apply a (r.metadataAll f.cfg)) ∧
    ∃ al, RepP (Mend.record v p).st ((f.input.adv (r.sizeAll o f.cfg)).flat al) := by
  obtain ⟨h1, h2⟩ := Mend.record_run hp v
  rw [Ideal.record_enc hs r hw hsize hb] at h1
  refine ⟨h1, ?_⟩
  have hh := headerAt_encAll hs r hb
  have hsz : (headerAt f).size.toNat = r.sizeAll o f.cfg := by rw [hh]; exact toNat_ofNat_lt hsize
  have hlen : f.s.bytes.length = r.sizeAll o f.cfg + tl.length := by rw [hb, List.length_append, KRecord.encAll_length]
  have h8 : 8 ≤ r.sizeAll o f.cfg := by unfold KRecord.sizeAll; omega
  rw [hsz] at h2
  exact h2 (by omega) h8 (by omega)

/-- `n` records one after the other. -/
def Mend.visitMany (v : Visitor Cow O) : Nat → Parser β → List (Except Fault O) × Parser β
  | 0, p => ([], p)
  | n + 1, p => ((Mend.record v p).res :: (Mend.visitMany v n (Mend.record v p).st).1, (Mend.visitMany v n (Mend.record v p).st).2)

/-- The results are what the visitor makes of these records and their metadata, in order. -/
def DeliversAll (v : Visitor Cow O) (cfg : ParseConfig) : List (Except Fault O) → List KRecord → Prop
  | [], [] => True
  | x :: xs, r :: rs =>
    (∃ c : Record Cow, c.view = r.body.value cfg r.misc ∧ x = v.apply c (r.metadataAll cfg)) ∧ DeliversAll v cfg xs rs
  | _, _ => False

/-- **C84** C69 without exceptions: any number of records the kernel writes, one after the other. -/
theorem c84_stream (hp : RepP p f) (hs : Src f.cfg o) (rs : List KRecord)
    (hok : ∀ r ∈ rs, r.body.Written f.cfg r.misc ∧ r.sizeAll o f.cfg < 65536)
    (hb : f.s.bytes = rs.flatMap (KRecord.encAll o f.cfg) ++ tl) (v : Visitor Cow O) :
    DeliversAll v f.cfg (Mend.visitMany v rs.length p).1 rs ∧
    ∃ al, RepP (Mend.visitMany v rs.length p).2 ((f.input.adv (rs.flatMap (KRecord.encAll o f.cfg)).length).flat al) := by
  induction rs generalizing p f with
  | nil =>
    refine ⟨trivial, f.s.al, ?_⟩
    have : (f.input.adv (([] : List KRecord).flatMap (KRecord.encAll o f.cfg)).length).flat f.s.al = f := by
      rw [List.flatMap_nil, List.length_nil, Input.adv_zero]; rfl
    rw [this]
    exact hp
  | cons r rs ih =>
    rw [List.flatMap_cons, List.append_assoc] at hb
    obtain ⟨h1, al, h2⟩ := c84_round_trip hp hs r (hok r (by simp)).1 (hok r (by simp)).2 hb v
    obtain ⟨h3, al', h4⟩ := ih (f := (f.input.adv (r.sizeAll o f.cfg)).flat al) h2 hs (fun r' hr' => hok r' (by simp [hr'])) (by
      show f.s.bytes.drop _ = _
      rw [hb, ← KRecord.encAll_length, List.drop_left]; rfl)
    refine ⟨⟨h1, h3⟩, al', ?_⟩
    have h5 : ((f.input.adv (r.sizeAll o f.cfg)).flat al).input.adv (rs.flatMap (KRecord.encAll o f.cfg)).length =
        f.input.adv ((r :: rs).flatMap (KRecord.encAll o f.cfg)).length := by
      show (f.input.adv (r.sizeAll o f.cfg)).adv _ = _
      rw [Input.adv_adv, List.flatMap_cons, List.length_append, KRecord.encAll_length]
    rw [← h5]
    exact h4

/-! ## What the crate reads correctly stays as it is -/

/-- **C84** If the crate accepts a record and the outcome is a function of the bytes (`Settled`), then with the corrections it is accepted
with the same contents and the same metadata. The exceptions are the records the crate accepts but misreads: MMAP with a trailer
(B12), WEIGHT_STRUCT (B8), absent registers (B10); and SWITCH, which it delivers as unknown (B3). -/
theorem c84_keeps (hp : RepP p f) (hs : Settled f) (h14 : (headerAt f).type_.toNat ≠ 14)
    (h1 : (headerAt f).type_.toNat = 1 → f.cfg.sampleIdAll = false)
    (hw : (headerAt f).type_.toNat = 9 → contains f.cfg.sampleType SampleFlags.WEIGHT_STRUCT = true →
      contains f.cfg.sampleType SampleFlags.WEIGHT = true)
    {a : Record Cow} {md : Metadata} (ha : (P.record pairVisitor p).res = .ok (a, md)) (hr : a.view.RegsPresent) :
    ∃ b : Record Cow, (Mend.record pairVisitor p).res = .ok (b, md) ∧ b.view = a.view := by
  rcases P.record_run hp pairVisitor with ⟨_, a2, _⟩ | ⟨a1, p', a2, _, a3⟩
  · rw [a2] at ha; cases ha
  rw [a3] at ha
  obtain ⟨_, _, x⟩ := P.recordWithHeader_run a2 pairVisitor (headerAt f)
  unfold Settled Spec.recordWithHeader at hs
  rcases e1 : Spec.metadataWithHeader (headerAt f) (f.adv 8) with e | ⟨⟨r, md'⟩, i⟩ <;> rw [e1] at x hs
  · cases e with
    | stuck => exact x.elim
    | err e => rw [x] at ha; cases ha
  · have x := x.1
    dsimp only at hs
    rcases e2 : (parseBody md'.ty : Spec (Record List)) (r.withMisc md'.misc) with e | ⟨c, j⟩ <;> rw [e2] at x hs
    · cases e with
      | stuck => exact absurd rfl hs
      | err e => rw [x] at ha; cases ha
    · obtain ⟨a', x1, x2⟩ := x
      obtain ⟨b0, y1, y2⟩ := pairVisitor_apply a' md'
      rw [y1] at x2
      rw [x2] at ha
      cases ha
      have hc : c.RegsPresent := by
        subst x1
        rw [y2] at hr
        revert hr
        cases a'.view <;> intro hr <;> exact hr
      have hi := Ideal.keeps (f := f.adv 8) (headerAt f) h14 h1 hw e1 e2 hc
      have hm := (Mend.record_run hp pairVisitor).1
      rw [show Ideal.record f.input = .ok (c, md) by unfold Ideal.record; rw [Ideal.header_eq a1]; exact hi] at hm
      obtain ⟨a'', z1, z2⟩ := hm
      obtain ⟨b1, w1, w2⟩ := pairVisitor_apply a'' md
      exact ⟨b1, z2.trans w1, by rw [w2, y2, z1, x1]⟩

/-! ## The witnesses of the other properties, corrected -/

/-- What the corrected `parse_record` returns for a slice at address `a`. -/
def mendedRecord (a : Nat) (d : List Byte) (cfg : ParseConfig) : Except Fault (Record Cow × Metadata) :=
  (Mend.record pairVisitor (Parser.new (⟨a, d⟩ : Slice) cfg)).res

/-- **C84** The witnesses of `c02_align_false` (a call chain at an odd address), `c02_poke_false` (TEXT_POKE without old bytes through a
reader), `c75_false` (an empty call chain at the end) and B3 (SWITCH) are decoded. -/
theorem c84_witnesses :
    (match mendedRecord 9 [9, 0, 0, 0, 0, 0, 24, 0, 1, 0, 0, 0, 0, 0, 0, 0, 7, 0, 0, 0, 0, 0, 0, 0] (demoEmptyCfg SampleFlags.CALLCHAIN) with
      | .ok (.sample s, _) => s.callchain == some (.owned [7])
      | _ => false) = true ∧
    (match (Mend.record pairVisitor (Parser.new (⟨[], [.data [20, 0, 0, 0, 0, 0, 24, 0, 1, 0, 0, 0, 0, 0, 0, 0, 0, 0, 4, 0, 0xa, 0xb, 0xc, 0xd]]⟩ :
        BufReader) demoCfg)).res with
      | .ok (.textPoke t, _) => t.oldBytes.data == [] && t.newBytes.data == [0xa, 0xb, 0xc, 0xd]
      | _ => false) = true ∧
    (match mendedRecord 8 (bodyOf 9 [] 8) (partsCfg 0 (1#64 <<< 5) false false 0 0) with
      | .ok (.sample s, _) => (s.callchain.map Cow.data) == some []
      | _ => false) = true ∧
    (match mendedRecord 8 (bodyOf 14 [] 0) demoCfg with
      | .ok (.switch, _) => true
      | _ => false) = true := by decide +kernel

/-- A name, absent registers, `WEIGHT_STRUCT` and an MMAP record with a trailer satisfy the conditions of `c84_round_trip`. -/
def demoMmapAll : KRecord := ⟨0, .mmap 1 2 3 4 5 ⟨[0x61, 0x62], 6⟩, ⟨1, 2, 3, 4, 5, 6, 7, 8⟩⟩
def demoSampleAll : KRecord := ⟨0, .sample { demoEventSample with weight := 77, dataSrc := 78 }, ⟨1, 2, 3, 4, 5, 6, 7, 8⟩⟩
example : demoMmapAll.body.Written (partsCfg 0 2 true false 0 0) 0 := by
  show _ ≠ _
  decide
example : demoSampleAll.body.Written (partsCfg 0 (1#64 <<< 12 ||| 1#64 <<< 24 ||| 1#64 <<< 15) true false 3 0) 0 := by
  refine ⟨?_, ?_, ?_, ?_, ?_⟩ <;> intro h
  · exact absurd h (by decide)
  · exact absurd h (by decide)
  · exact rfl
  · exact absurd h (by decide)
  · exact absurd h (by decide)

/-- **C84** The file name of the MMAP record without the trailer, which is in the metadata; absent registers are empty and the weight is
there. (For the crate see `c58_false`, `c49_abi_none_false`, `c50_weight_struct_false`.) -/
theorem c84_parts :
    (match mendedRecord 3 (demoMmapAll.encAll .little (partsCfg 0 2 true false 0 0)) (partsCfg 0 2 true false 0 0) with
      | .ok (.mmap m, md) => m.filename.data == [0x61, 0x62] && md.sampleId.pid == some 1
      | _ => false) = true ∧
    (match mendedRecord 3 (demoSampleAll.encAll .little (partsCfg 0 (1#64 <<< 12 ||| 1#64 <<< 24 ||| 1#64 <<< 15) true false 3 0))
        (partsCfg 0 (1#64 <<< 12 ||| 1#64 <<< 24 ||| 1#64 <<< 15) true false 3 0) with
      | .ok (.sample s, _) => s.weight == some 77 && s.dataSrc == some 78 && (s.regsUser.map fun r => r.regs.data) == some []
      | _ => false) = true := by decide +kernel

end Perf
