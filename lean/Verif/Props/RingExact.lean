import Verif.Props.LoopExact
import Verif.Props.Readable
/-!
# C101: the kernel's records from a ring buffer that has wrapped around

C87 is about one piece of memory and about readers. Here the input is in several pieces, each at an address divisible by 8 and a multiple of 8
bytes long, as in the ring buffer the kernel shares with the program: a record may begin at its end and go on at its start.
-/
namespace Perf
variable {β : Type} [ParseBuf β] [LawfulEof β] {F : List Chunk → β → Prop} {cs : List Chunk} {p : Parser β} {f : Flat} {o : Order} {cfg : ParseConfig}
  {tl : List Byte}

/-- Whether the record is read as from a reader: only a TEXT_POKE may be, if its code is not in one borrowed piece. -/
def KRecord.torn (cs : List Chunk) (r : KRecord) : Bool := !r.body.whole (bodyLie cs)

theorem KRecord.torn_strewn {m : U16} {t : KTrailer} {addr : U64} {old new pad : List Byte} (hw : KBody.Written cfg m (.textPoke addr old new pad))
    (hsize : KRecord.size o cfg ⟨m, .textPoke addr old new pad, t⟩ < 65536)
    (hb : cs.flatMap Chunk.data = KRecord.enc o cfg ⟨m, .textPoke addr old new pad, t⟩ ++ tl) :
    KRecord.StrewnFrom o cfg cs ⟨m, .textPoke addr old new pad, t⟩ {} [] where
  strewn := by
    have h : (KBody.enc o cfg (.textPoke addr old new pad)).length < 65536 := by
      unfold KRecord.size at hsize
      simp only at hsize
      omega
    simp only [KBody.enc, List.length_append] at h
    exact ⟨by omega, by omega, hw.1, hw.2⟩
  small := hsize
  toEnd _ := rfl
  bytes := by
    rw [hb]
    refine ⟨tl, ?_⟩
    congr 1
    simp only [KRecord.encHeld, KRecord.enc, KRecord.sizeHeld, KRecord.size, KBody.encHeld, List.append_nil, List.length_nil, Nat.add_zero]

/-- **C101** Which records are delivered. -/
theorem c101_record (hF : SewnBuf F) (hp : Lies F cs p f) (hs : Src f.cfg o) (r : KRecord) (hr : r.Fits o f.cfg)
    (hal : f.cfg.endian.isNative = true → AlMod f.s.al 0) (hb : f.s.bytes = r.encAll o f.cfg ++ tl) :
    r.DeliveredBy f.cfg (P.record pairVisitor p).res ↔ r.Readable (r.torn cs) o f.cfg := by
  refine P.delivered_iff hp.rep hs r hr.written hr.stack hr.size hal hb _ fun addr old new pad hk => ?_
  obtain ⟨hw, -, hsize⟩ := hr
  obtain ⟨m, b, t⟩ := r
  subst hk
  obtain ⟨e1, e2, e3⟩ := KRecord.all_eq (o := o) (cfg := f.cfg) (r := ⟨m, .textPoke addr old new pad, t⟩)
    fun h => absurd (show 20#32 = 1#32 from h) (by decide)
  rw [e1] at hb
  rw [e2] at hsize
  obtain ⟨⟨a, h1, h2⟩, -⟩ := hp.returned hF hs (KRecord.torn_strewn hw hsize (hp.bytes ▸ hb))
  unfold KRecord.DeliveredBy
  rw [h1, e3]
  have h8 := hw.2
  have h3 : (∃ a' : Record Cow, a'.view = KBody.value f.cfg m (.textPoke addr old new pad) ∧
      (Except.ok (a, KRecord.metadata f.cfg ⟨m, .textPoke addr old new pad, t⟩) : Except Fault _) = .ok (a', KRecord.metadata f.cfg ⟨m, .textPoke addr old new pad, t⟩)) ↔
      KBody.valueStrewn f.cfg m (bodyLie cs) (.textPoke addr old new pad) = .textPoke ⟨addr, old, new⟩ := by
    constructor
    · rintro ⟨a', h4, h5⟩
      cases h5
      rw [← h2, h4]
      rfl
    · intro h4
      exact ⟨a, h2.trans h4, rfl⟩
  refine h3.trans ?_
  show _ ↔ ((!KBody.whole (bodyLie cs) (.textPoke addr old new pad)) = true → old ≠ [] ∧ new ++ pad ≠ [])
  unfold KBody.valueStrewn
  by_cases hwh : KBody.whole (bodyLie cs) (.textPoke addr old new pad) = true
  · rw [if_pos hwh, hwh]
    exact ⟨fun _ h => absurd h (by decide), fun _ => rfl⟩
  · rw [if_neg hwh, Bool.eq_false_iff.2 hwh]
    show (if old = [] then Record.textPoke ⟨addr, new ++ pad, []⟩ else if new ++ pad = [] then Record.textPoke ⟨addr, [], []⟩ else
      Record.textPoke ⟨addr, old, new⟩) = _ ↔ _
    constructor
    · intro h _
      by_cases h0 : old = []
      · rw [if_pos h0] at h
        simp only [Record.textPoke.injEq, TextPoke.mk.injEq] at h
        have h5 := List.append_eq_nil_iff.1 (h.2.1.trans h0)
        rw [h0, h5.1, h5.2] at h8
        exact absurd h8 (by decide)
      · refine ⟨h0, fun h6 => ?_⟩
        rw [if_neg h0, if_pos h6] at h
        simp only [Record.textPoke.injEq, TextPoke.mk.injEq] at h
        exact h0 h.2.1.symm
    · intro h
      rw [if_neg (h rfl).1, if_neg (h rfl).2]

/-- Behind the record come the pieces that are left. -/
theorem Lies.behind (hF : SewnBuf F) (hp : Lies F cs p f) (hs : Src f.cfg o) (r : KRecord) (hsize : r.sizeAll o f.cfg < 65536)
    (hb : f.s.bytes = r.encAll o f.cfg ++ tl) :
    Lies F (dropPieces cs (r.encAll o f.cfg).length) (P.record pairVisitor p).st (f.adv (r.encAll o f.cfg).length) := by
  have h1 := hp.after hF pairVisitor
  have h2 := c87_behind hp.rep hs r hsize hb
  have h3 : f.off + firstLen f.cfg f.s.bytes = f.off + (r.encAll o f.cfg).length := h1.rep.off.symm.trans h2.off
  rw [show firstLen f.cfg f.s.bytes = (r.encAll o f.cfg).length by omega] at h1
  exact h1

/-- In a list of results each record of a stream in these pieces is delivered exactly if it is readable. -/
def JudgedIn (o : Order) (cfg : ParseConfig) : List Chunk → List KRecord → List (Except Fault (Record Cow × Metadata)) → Prop
  | _, [], xs => xs = []
  | cs, r :: rs, xs => ∃ x xs', xs = x :: xs' ∧ (r.DeliveredBy cfg x ↔ r.Readable (r.torn cs) o cfg) ∧
      JudgedIn o cfg (dropPieces cs (r.encAll o cfg).length) rs xs'

/-- **C101** A stream of records: each call delivers its record if and only if it is readable, whatever happened to the ones before it. -/
theorem c101_stream (hF : SewnBuf F) (rs : List KRecord) (hp : Lies F cs p f) (hs : Src f.cfg o) (hal : f.cfg.endian.isNative = true → AlMod f.s.al 0)
    (hz : f.cfg.endian.isNative = true → ∀ r ∈ rs, r.sizeAll o f.cfg % 8 = 0) (hw : ∀ r ∈ rs, r.Fits o f.cfg)
    (hb : f.s.bytes = rs.flatMap (fun r => r.encAll o f.cfg) ++ tl) :
    JudgedIn o f.cfg cs rs (visitMany pairVisitor rs.length p).1 := by
  induction rs generalizing p f cs with
  | nil => rfl
  | cons r rs ih =>
    rw [List.flatMap_cons, List.append_assoc] at hb
    have hr := hw r List.mem_cons_self
    refine ⟨(P.record pairVisitor p).res, _, rfl, c101_record hF hp hs r hr hal hb, ?_⟩
    have hl := KRecord.encAll_length (o := o) (cfg := f.cfg) r
    refine ih (f := f.adv (r.encAll o f.cfg).length) (hp.behind hF hs r hr.size hb) hs (fun hn => ?_) (fun hn r' h => hz hn r' (List.mem_cons_of_mem _ h))
      (fun r' h => hw r' (List.mem_cons_of_mem _ h)) ?_
    · exact ((hal hn).add _).congr (by have := hz hn r List.mem_cons_self; omega)
    · rw [Flat.adv_bytes, hb, List.drop_left]
      rfl

/-- No TEXT_POKE with nothing on one side. -/
def KRecord.TwoSided (r : KRecord) : Prop := ∀ addr old new pad, r.body = .textPoke addr old new pad → old ≠ [] ∧ new ++ pad ≠ []

theorem KRecord.Readable.torn_iff {r : KRecord} (h : r.TwoSided) (c c' : Bool) : r.Readable c o cfg ↔ r.Readable c' o cfg := by
  have key : ∀ c c', r.Readable c o cfg → r.Readable c' o cfg := by
    rintro c c' ⟨h1, h2, h3⟩
    refine ⟨h1, ?_, h3⟩
    obtain ⟨m, b, t⟩ := r
    cases b <;> first | exact h2 | exact fun _ => h _ _ _ _ rfl
  exact ⟨key c c', key c' c⟩

/-- All are delivered if and only if all are readable where they are. -/
def ReadableIn (o : Order) (cfg : ParseConfig) : List Chunk → List KRecord → Prop
  | _, [] => True
  | cs, r :: rs => r.Readable (r.torn cs) o cfg ∧ ReadableIn o cfg (dropPieces cs (r.encAll o cfg).length) rs

theorem JudgedIn.all {rs : List KRecord} {xs : List (Except Fault (Record Cow × Metadata))} (h : JudgedIn o cfg cs rs xs) :
    (∀ (i : Nat) (r : KRecord), rs[i]? = some r → ∃ x, xs[i]? = some x ∧ r.DeliveredBy cfg x) ↔ ReadableIn o cfg cs rs := by
  induction rs generalizing cs xs with
  | nil => exact ⟨fun _ => trivial, fun _ i r h => by simp at h⟩
  | cons r rs ih =>
    obtain ⟨x, xs', rfl, h1, h2⟩ := h
    constructor
    · intro hd
      refine ⟨?_, (ih h2).1 fun i r' hi => hd (i + 1) r' hi⟩
      obtain ⟨y, hy, hd⟩ := hd 0 r rfl
      cases hy
      exact h1.1 hd
    · rintro ⟨h3, h4⟩ i r' hi
      cases i with
      | zero => cases hi; exact ⟨x, rfl, h1.2 h3⟩
      | succ i => exact (ih h2).2 h4 i r' hi

theorem JudgedIn.judged {rs : List KRecord} {xs : List (Except Fault (Record Cow × Metadata))} (h : JudgedIn o cfg cs rs xs)
    (ht : ∀ r ∈ rs, r.TwoSided) (c : Bool) : Judged c o cfg rs xs := by
  induction rs generalizing cs xs with
  | nil => rw [show xs = [] from h]; exact ⟨rfl, fun i r h => by simp at h⟩
  | cons r rs ih =>
    obtain ⟨x, xs', rfl, h1, h2⟩ := h
    exact (ih h2 fun r' h => ht r' (List.mem_cons_of_mem _ h)).cons (h1.trans (KRecord.Readable.torn_iff (ht r List.mem_cons_self) _ _))

/-! ## Ring buffers -/

/-- The pieces of a mapped ring buffer: at addresses divisible by 8, and a multiple of 8 bytes long. -/
def Mapped (ps : List Slice) : Prop := ∀ s ∈ ps, s.addr % 8 = 0 ∧ s.data.length % 8 = 0

theorem Mapped.chunksAl {ps : List Slice} (h : Mapped ps) {n : Nat} (hn : n % 8 = 0) : ChunksAl (.at n) (ps.map fun s => ⟨.external s.addr, s.data⟩) := by
  induction ps generalizing n with
  | nil => trivial
  | cons s ps ih =>
    obtain ⟨h1, h2⟩ := h s List.mem_cons_self
    exact ⟨by show s.addr % 8 = n % 8; omega, ih (fun s' hs' => h s' (List.mem_cons_of_mem _ hs')) (show (n + s.data.length) % 8 = 0 by omega)⟩

theorem Lies.mapped (ps : List Slice) (h : ∀ s ∈ ps, s.data ≠ []) (ha : Mapped ps) (hw : cfg.Wf) :
    Lies (fun cs (b : ChunkBuf) => (∀ s ∈ b.pieces, s.data ≠ []) ∧ cs = b.chunks) (ChunkBuf.mk ps).chunks (Parser.new (⟨ps⟩ : ChunkBuf) cfg)
      ⟨⟨piecesData ps, .at 0, .eof⟩, 0, cfg⟩ where
  rep := ⟨⟨rfl, rfl, h, ha.chunksAl rfl⟩, rfl, rfl, hw⟩
  sewn := ⟨h, rfl⟩
  bytes := (Lies.chunkBuf ps h hw).bytes
  fin := rfl

/-- **C101** For a ring buffer, wrapped around or not, in its own byte order or another. -/
theorem c101_ring (ps : List Slice) (h : ∀ s ∈ ps, s.data ≠ []) (rs : List KRecord) (hwf : cfg.Wf) (hs : Src cfg o)
    (ha : cfg.endian.isNative = true → Mapped ps) (hz : cfg.endian.isNative = true → ∀ r ∈ rs, r.sizeAll o cfg % 8 = 0)
    (hw : ∀ r ∈ rs, r.Fits o cfg) (hb : piecesData ps = rs.flatMap (fun r => r.encAll o cfg) ++ tl) :
    JudgedIn o cfg (ChunkBuf.mk ps).chunks rs (visitMany pairVisitor rs.length (Parser.new (⟨ps⟩ : ChunkBuf) cfg)).1 := by
  by_cases hn : cfg.endian.isNative = true
  · exact c101_stream SewnBuf.chunkBuf rs (Lies.mapped ps h (ha hn) hwf) hs (fun _ => rfl) hz hw hb
  · exact c101_stream SewnBuf.chunkBuf rs (Lies.chunkBuf ps h hwf) hs (fun h' => absurd h' hn) hz hw hb

/-- **C101** All of a recording is delivered, record for record, if and only if each of its records is readable where it lies. -/
theorem c101_whole (ps : List Slice) (h : ∀ s ∈ ps, s.data ≠ []) (rs : List KRecord) (hwf : cfg.Wf) (hs : Src cfg o)
    (ha : cfg.endian.isNative = true → Mapped ps) (hz : cfg.endian.isNative = true → ∀ r ∈ rs, r.sizeAll o cfg % 8 = 0)
    (hw : ∀ r ∈ rs, r.Fits o cfg) (hb : piecesData ps = rs.flatMap (fun r => r.encAll o cfg) ++ tl) :
    (∀ (i : Nat) (r : KRecord), rs[i]? = some r → ∃ x, (visitMany pairVisitor rs.length (Parser.new (⟨ps⟩ : ChunkBuf) cfg)).1[i]? = some x ∧
        r.DeliveredBy cfg x) ↔ ReadableIn o cfg (ChunkBuf.mk ps).chunks rs :=
  (c101_ring ps h rs hwf hs ha hz hw hb).all

/-- **C101** Where the buffer wraps around makes no difference, unless there is a TEXT_POKE with nothing on one side: the records delivered are
those that are delivered from one piece of memory. -/
theorem c101_wrapped (ps : List Slice) (h : ∀ s ∈ ps, s.data ≠ []) (rs : List KRecord) (hwf : cfg.Wf) (hs : Src cfg o)
    (ha : cfg.endian.isNative = true → Mapped ps) (hz : cfg.endian.isNative = true → ∀ r ∈ rs, r.sizeAll o cfg % 8 = 0)
    (hw : ∀ r ∈ rs, r.Fits o cfg) (hb : piecesData ps = rs.flatMap (fun r => r.encAll o cfg) ++ tl) (ht : ∀ r ∈ rs, r.TwoSided)
    (a : Nat) (ha' : cfg.endian.isNative = true → a % 8 = 0) (i : Nat) (r : KRecord) (hi : rs[i]? = some r) :
    ∃ x y, (visitMany pairVisitor rs.length (Parser.new (⟨ps⟩ : ChunkBuf) cfg)).1[i]? = some x ∧
      (visitMany pairVisitor rs.length (Parser.new (⟨a, piecesData ps⟩ : Slice) cfg)).1[i]? = some y ∧ (r.DeliveredBy cfg x ↔ r.DeliveredBy cfg y) := by
  obtain ⟨x, hx, h1⟩ := ((c101_ring ps h rs hwf hs ha hz hw hb).judged ht false).2 i r hi
  obtain ⟨y, hy, h2⟩ := (c87_memory_stream (tl := tl) OneBuf.slice rs (p := Parser.new (⟨a, piecesData ps⟩ : Slice) cfg) (f := .here a (piecesData ps) cfg)
    ⟨_, rfl⟩ (RepP.slice a _ hwf) hs (fun hn => ha' hn) hz hw hb).1.2 i r hi
  exact ⟨x, y, hx, hy, h1.trans h2.symm⟩

/-! ## A buffer that wraps around -/

/-- LOST, an insertion of 12 bytes, a replacement, LOST. -/
def demoRing : List KRecord :=
  [⟨0, .lost ⟨7, 3⟩, ⟨0, 0, 0, 0, 0, 0, 0, 0⟩⟩, ⟨0, .textPoke 9 [] [1, 2, 3, 4, 5, 6, 7, 8, 9, 10, 11, 12] [], ⟨0, 0, 0, 0, 0, 0, 0, 0⟩⟩,
   ⟨0, .textPoke 9 [1, 2, 3, 4, 5, 6] [7, 8, 9, 10, 11, 12] [], ⟨0, 0, 0, 0, 0, 0, 0, 0⟩⟩, ⟨0, .lost ⟨8, 4⟩, ⟨0, 0, 0, 0, 0, 0, 0, 0⟩⟩]

/-- The buffer ends `n` bytes into the recording, which goes on at its start. -/
def demoWrapped (n : Nat) : List Slice :=
  [⟨4096 - n, (demoRing.flatMap fun r => r.encAll .little demoCfg).take n⟩, ⟨0, (demoRing.flatMap fun r => r.encAll .little demoCfg).drop n⟩]

theorem demoRing_fits : (∀ r ∈ demoRing, r.Fits .little demoCfg) ∧ ∀ r ∈ demoRing, r.sizeAll .little demoCfg % 8 = 0 := by
  refine ⟨fun r hr => ?_, by decide +kernel⟩
  simp only [demoRing, List.mem_cons, List.not_mem_nil, or_false] at hr
  rcases hr with rfl | rfl | rfl | rfl
  · exact ⟨trivial, trivial, by decide +kernel⟩
  · exact ⟨⟨by decide, by decide⟩, trivial, by decide +kernel⟩
  · exact ⟨⟨by decide, by decide⟩, trivial, by decide +kernel⟩
  · exact ⟨trivial, trivial, by decide +kernel⟩

/-- `c101_ring` for it, with the end of the buffer in the code of the insertion. -/
example : JudgedIn .little demoCfg (ChunkBuf.mk (demoWrapped 48)).chunks demoRing
    (visitMany pairVisitor 4 (Parser.new (⟨demoWrapped 48⟩ : ChunkBuf) demoCfg)).1 :=
  c101_ring (tl := []) (demoWrapped 48) (by decide +kernel) demoRing demoCfg_wf (Src.little _ _) (fun _ => by unfold Mapped; decide +kernel)
    (fun _ => demoRing_fits.2) demoRing_fits.1 (by decide +kernel)

/-- The insertion is not delivered there; the replacement is, wherever the buffer ends. -/
example : (demoRing.map (fun r => r.torn (dropPieces (ChunkBuf.mk (demoWrapped 48)).chunks 24)))[1]? = some true ∧
    ¬ (demoRing[1]'(by decide)).Readable true .little demoCfg ∧ (demoRing[2]'(by decide)).Readable true .little demoCfg :=
  ⟨by decide +kernel, fun h => (h.announced rfl).1 rfl,
    ⟨trivial, fun _ => ⟨by decide, by decide⟩, fun h => absurd (show 20#32 = 1#32 from h) (by decide)⟩⟩

/-- As it comes out of the model, with the end of the buffer in the insertion, in the replacement, and between two records. -/
theorem c101_example :
    (visitMany pairVisitor 4 (Parser.new (⟨demoWrapped 48⟩ : ChunkBuf) demoCfg)).1.map seen =
      [some none, some (some ([1, 2, 3, 4, 5, 6, 7, 8, 9, 10, 11, 12], [])), some (some ([1, 2, 3, 4, 5, 6], [7, 8, 9, 10, 11, 12])), some none] ∧
    ∀ n ∈ [24, 40, 56, 80, 88], (visitMany pairVisitor 4 (Parser.new (⟨demoWrapped n⟩ : ChunkBuf) demoCfg)).1.map seen =
      [some none, some (some ([], [1, 2, 3, 4, 5, 6, 7, 8, 9, 10, 11, 12])), some (some ([1, 2, 3, 4, 5, 6], [7, 8, 9, 10, 11, 12])), some none] := by
  decide +kernel

end Perf
