import Verif.Props.ErrorExact
import Verif.Props.ByHand
/-!
# C102: exactly what `parse_metadata` returns for any input

`parse_metadata` looks at the header and at the trailer and hands out the body unread. So the bytes that it accepts are all frames whose
size is that of header, body and trailer; here they are written down, together with each error and the input that it is returned for.
-/
namespace Perf
variable {β : Type} [ParseBuf β] [Lawful β] {p : Parser β} {f : Flat} {o : Order} {cfg : ParseConfig} {fin : ParseError} {bs : List Byte}

/-- What `parse_metadata` finds in the input `bs`, after which the buffer reports `fin`: the body, the metadata and how long the record is,
or an error. -/
inductive FrameOutcome (o : Order) (cfg : ParseConfig) (fin : ParseError) (bs : List Byte) : Except ParseError (List Byte × Metadata × Nat) → Prop
  | record (type : U32) (misc size : U16) (body tl : List Byte) (t : KTrailer) :
      bs = e32 o type ++ e16 o misc ++ e16 o size ++ body ++
        (if cfg.sampleIdAll && type != 1#32 && type != 9#32 then t.enc o cfg.sampleType else []) ++ tl →
      size.toNat = 8 + body.length + trailerOf cfg type →
      FrameOutcome o cfg fin bs (.ok (body,
        ⟨type, misc, if cfg.sampleIdAll && type != 1#32 && type != 9#32 then t.value cfg.sampleType else ⟨none, none, none, none, none, none⟩⟩,
        size.toNat))
  | size (type : U32) (misc size : U16) (tl : List Byte) : bs = e32 o type ++ e16 o misc ++ e16 o size ++ tl → size.toNat < 8 →
      FrameOutcome o cfg fin bs (.error (.custom .invalidRecord "header size was too small to be valid"))
  | trailer (type : U32) (misc size : U16) (tl : List Byte) : bs = e32 o type ++ e16 o misc ++ e16 o size ++ tl →
      8 ≤ size.toNat → size.toNat ≤ 8 + tl.length → size.toNat < 8 + trailerOf cfg type →
      FrameOutcome o cfg fin bs (.error (.custom .invalidRecord ("config has sample_id_all bit set but record does not have enough data " ++
        "to store the sample_id")))
  | header : bs.length < 8 → FrameOutcome o cfg fin bs (.error fin)
  | rest (type : U32) (misc size : U16) (tl : List Byte) : bs = e32 o type ++ e16 o misc ++ e16 o size ++ tl →
      8 + tl.length < size.toNat → FrameOutcome o cfg fin bs (.error fin)

/-- The same in terms of the framing of the stream. -/
def frameAt (f : Flat) : Except ParseError (List Byte × Metadata × Nat) :=
  if f.s.bytes.length < 8 then .error f.s.fin else
    match Spec.metadataWithHeader (headerAt f) (f.adv 8) with
    | .ok ((r, md), _) => .ok (r.s.bytes, md, (headerAt f).size.toNat)
    | .error (.err e) => .error e
    | .error .stuck => .error .eof

theorem trailerOf_enc (ty : U32) (t : KTrailer) :
    (if cfg.sampleIdAll && ty != 1#32 && ty != 9#32 then t.enc o cfg.sampleType else []).length = trailerOf cfg ty := by
  by_cases hty : ty.toNat = 1 ∨ ty.toNat = 9
  · rw [trailerOf_none hty]
    rcases hty with h | h
    · rw [show ty = 1#32 from BitVec.eq_of_toNat_eq h]; simp
    · rw [show ty = 9#32 from BitVec.eq_of_toNat_eq h]; simp
  · rw [trailerOf_some hty, estimateLen_eq]
    have h1 : (ty != 1#32) = true := by simp only [bne_iff_ne, ne_eq]; intro h'; exact hty (.inl (by rw [h']; rfl))
    have h9 : (ty != 9#32) = true := by simp only [bne_iff_ne, ne_eq]; intro h'; exact hty (.inr (by rw [h']; rfl))
    cases cfg.sampleIdAll <;> simp [h1, h9, KTrailer.enc_length]

theorem FrameOutcome.eq (hs : Src f.cfg o) {x : Except ParseError (List Byte × Metadata × Nat)} (h : FrameOutcome o f.cfg f.s.fin f.s.bytes x) :
    frameAt f = x := by
  unfold frameAt
  cases h with
  | record ty misc size body tl t hb hz =>
    have hl := trailerOf_enc (o := o) (cfg := f.cfg) ty t
    have hsz : (KRecord.mk misc (.other ty body) t).size o f.cfg = size.toNat := by
      show 8 + body.length + ((if f.cfg.sampleIdAll && ty != 1#32 && ty != 9#32 then t.enc o f.cfg.sampleType else [])).length = _
      rw [hl]; omega
    have hsm : (KRecord.mk misc (.other ty body) t).size o f.cfg < 65536 := by rw [hsz]; exact size.isLt
    have hb' := hb
    rw [List.append_assoc, List.append_assoc] at hb'
    obtain ⟨h8, h1, h2, h3, h4⟩ := headerAt_unique hs hb'
    rw [if_neg (by omega)]
    have hb8 : (f.adv 8).s.bytes = (KRecord.mk misc (.other ty body) t).body.enc o f.cfg ++ (KRecord.mk misc (.other ty body) t).encTrailer o f.cfg ++ tl := by
      rw [← h4, List.append_assoc]; rfl
    obtain ⟨f', hm⟩ := metadata_enc (f := f.adv 8) (o := o) hs _ hsm hb8
    simp only [Flat.adv_cfg] at hm
    rw [hsz, BitVec.ofNat_toNat, BitVec.setWidth_eq] at hm
    have hh : headerAt f = ⟨ty, misc, size⟩ := by rw [h1, h2, h3]
    rw [hh]
    have hm' : Spec.metadataWithHeader ⟨ty, misc, size⟩ (f.adv 8) = _ := hm
    rw [hm']
    have hreg : ((f.adv 8).region body.length).s.bytes = body := by
      show ((f.adv 8).s.bytes).take body.length = body
      rw [← h4, List.take_left]
    show Except.ok (((f.adv 8).region body.length).s.bytes, _, _) = _
    rw [hreg]; rfl
  | size ty misc size tl hb hz =>
    obtain ⟨h8, rfl, rfl, rfl, rfl⟩ := headerAt_unique hs hb
    rw [if_neg (by omega)]
    rcases Spec.metadata_cases (headerAt f) (f.adv 8) with m | m | m | m | m
    · rw [m.2]
    all_goals omega
  | trailer ty misc size tl hb hz h2 h3 =>
    obtain ⟨h8, rfl, rfl, rfl, rfl⟩ := headerAt_unique hs hb
    rw [if_neg (by omega)]
    rcases Spec.metadata_cases (headerAt f) (f.adv 8) with m | m | m | m | m
    · omega
    · omega
    · rw [trailerOf_none m.2.2.1] at h3; omega
    · rw [m.2.2.2.2]
    · obtain ⟨_, _, m3, m4, _⟩ := m
      rw [trailerOf_some m3] at h3
      rw [Flat.adv_cfg] at m4
      omega
  | header h => rw [if_pos h]
  | rest ty misc size tl hb hz =>
    obtain ⟨h8, rfl, rfl, rfl, rfl⟩ := headerAt_unique hs hb
    rw [if_neg (by omega)]
    rcases Spec.metadata_cases (headerAt f) (f.adv 8) with m | m | m | m | m
    · omega
    · rw [m.2.2]; rfl
    all_goals omega

theorem FrameOutcome.of (hs : Src f.cfg o) : FrameOutcome o f.cfg f.s.fin f.s.bytes (frameAt f) := by
  unfold frameAt
  by_cases h8 : f.s.bytes.length < 8
  · rw [if_pos h8]; exact .header h8
  rw [if_neg h8]
  have hlay := header_layout hs (by omega : 8 ≤ f.s.bytes.length)
  have good : ∀ reg md g, Spec.metadataWithHeader (headerAt f) (f.adv 8) = .ok ((reg, md), g) →
      FrameOutcome o f.cfg f.s.fin f.s.bytes (.ok (reg.s.bytes, md, (headerAt f).size.toNat)) := by
    intro reg md g hm
    obtain ⟨len, t, rfl, rfl, m1, m2, m3, m4⟩ := Spec.metadata_inv (f := f.adv 8) (o := o) hs hm
    obtain ⟨e1, e2⟩ := m4 (.other (headerAt f).type_ ((f.adv 8).s.bytes.take len)) rfl
    have e1' : md = ⟨(headerAt f).type_, (headerAt f).misc, if f.cfg.sampleIdAll && (headerAt f).type_ != 1#32 && (headerAt f).type_ != 9#32 then
      t.value f.cfg.sampleType else ⟨none, none, none, none, none, none⟩⟩ := e1
    have e2' : ((f.adv 8).s.bytes.take ((headerAt f).size.toNat - 8)).drop len =
      (if f.cfg.sampleIdAll && (headerAt f).type_ != 1#32 && (headerAt f).type_ != 9#32 then t.enc o f.cfg.sampleType else []) := e2
    have hl := trailerOf_enc (o := o) (cfg := f.cfg) (headerAt f).type_ t
    rw [← e2', List.length_drop, List.length_take] at hl
    rw [e1']
    refine .record (headerAt f).type_ (headerAt f).misc (headerAt f).size ((f.adv 8).s.bytes.take len) ((f.adv 8).s.bytes.drop ((headerAt f).size.toNat - 8)) t ?_ ?_
    · rw [← e2']
      have h5 : (f.adv 8).s.bytes.take len = ((f.adv 8).s.bytes.take ((headerAt f).size.toNat - 8)).take len := by
        rw [List.take_take, Nat.min_eq_left m2]
      rw [h5, List.append_assoc _ (List.take _ _) (List.drop _ _), List.take_append_drop, List.append_assoc, List.take_append_drop]
      exact hlay
    · rw [List.length_take]; omega
  rcases Spec.metadata_cases (headerAt f) (f.adv 8) with ⟨m1, m2⟩ | ⟨m1, m2, m3⟩ | ⟨_, _, _, m4⟩ | ⟨m1, m2, m3, m4, m5⟩ | ⟨_, _, _, _, _, _, _, m4⟩
  · rw [m2]; exact .size _ _ _ _ hlay m1
  · rw [m3]; exact .rest _ _ _ _ hlay (by rw [Flat.adv_bytes] at m2; omega)
  · rw [m4]; exact good _ _ _ m4
  · rw [m5]; exact .trailer _ _ _ _ hlay m1 (by rw [Flat.adv_bytes] at m2; omega) (by rw [trailerOf_some m3]; rw [Flat.adv_cfg] at m4; omega)
  · rw [m4]; exact good _ _ _ m4

/-- **C102** Every input is a frame or has one of these mistakes, and only one. -/
theorem c102_unique (hs : Src cfg o) (fin : ParseError) (bs : List Byte) :
    ∃ x, FrameOutcome o cfg fin bs x ∧ ∀ y, FrameOutcome o cfg fin bs y → y = x := by
  let f : Flat := ⟨⟨bs, .temp, fin⟩, 0, cfg⟩
  exact ⟨frameAt f, FrameOutcome.of (f := f) hs, fun y h => (FrameOutcome.eq (f := f) hs h).symm⟩

/-- `parse_metadata` returns this: metadata, a parser over exactly this body that then reports `Eof`, and an outer parser that stands so many
bytes further; or an error. -/
def FrameReturned (p : Parser β) (f : Flat) : Except ParseError (List Byte × Metadata × Nat) → Prop
  | .ok (body, md, n) => ∃ c : Parser Cursor, (P.metadata p).res = .ok (c, md) ∧ RepP c ⟨⟨body, f.s.al.add 8, .eof⟩, 0, f.cfg⟩ ∧
      RepP (P.metadata p).st (f.adv n)
  | .error e => (P.metadata p).res = .error (.err e)

/-- **C102** What `parse_metadata` returns: the metadata and a parser over exactly the body, with the outer parser behind the record, or the
error. -/
theorem c102_returns (hp : RepP p f) (hs : Src f.cfg o) {x : Except ParseError (List Byte × Metadata × Nat)}
    (h : FrameOutcome o f.cfg f.s.fin f.s.bytes x) :
    FrameReturned p f x := by
  have hx := FrameOutcome.eq hs h
  subst hx
  clear h
  unfold frameAt
  rcases P.metadata_run hp with ⟨h8, hr⟩ | ⟨h8, q, hq, hr⟩
  · rw [if_pos h8]; exact hr
  rw [if_neg (by omega)]
  obtain ⟨h1, h2, h3⟩ := P.metadataWithHeader_run hq (headerAt f)
  rcases hm : Spec.metadataWithHeader (headerAt f) (f.adv 8) with e | ⟨⟨r, md⟩, g⟩ <;> rw [hm] at h3
  · cases e with
    | err e => rw [← hr] at h3; exact h3
    | stuck => exact h3.elim
  · obtain ⟨c, h4, h5⟩ := h3
    obtain ⟨len, t, rfl, rfl, m1, m2, m3, m4⟩ := Spec.metadata_inv (f := f.adv 8) (o := o) hs hm
    refine ⟨c, by rw [hr]; exact h4, h5.rep, ?_⟩
    have h6 := (h1 m1 m3).1
    rw [Flat.adv_adv, Nat.add_sub_cancel' m1] at h6
    rw [hr]
    exact h6

/-- **C102** And so it succeeds exactly on frames. -/
theorem c102_exact (hp : RepP p f) (hs : Src f.cfg o) (md : Metadata) :
    (∃ c, (P.metadata p).res = .ok (c, md)) ↔ ∃ body n, FrameOutcome o f.cfg f.s.fin f.s.bytes (.ok (body, md, n)) := by
  constructor
  · rintro ⟨c, h⟩
    have h1 := FrameOutcome.of (f := f) hs
    have h2 := c102_returns hp hs h1
    generalize frameAt f = x at h1 h2
    rcases x with e | ⟨body, md', n⟩
    · rw [show (P.metadata p).res = .error (.err e) from h2] at h; cases h
    · obtain ⟨c', h3, _⟩ := h2
      rw [h3] at h
      cases h
      exact ⟨body, n, h1⟩
  · rintro ⟨body, n, h⟩
    obtain ⟨c, h1, _⟩ := c102_returns hp hs h
    exact ⟨c, h1⟩

/-- **C102** And it returns an error exactly on these mistakes. -/
theorem c102_error (hp : RepP p f) (hs : Src f.cfg o) (e : ParseError) :
    (P.metadata p).res = .error (.err e) ↔ FrameOutcome o f.cfg f.s.fin f.s.bytes (.error e) := by
  constructor
  · intro h
    have h1 := FrameOutcome.of (f := f) hs
    have h2 := c102_returns hp hs h1
    generalize frameAt f = x at h1 h2
    rcases x with e' | ⟨body, md', n⟩
    · rw [show (P.metadata p).res = .error (.err e') from h2] at h; cases h; exact h1
    · obtain ⟨c', h3, _⟩ := h2
      rw [h3] at h
      cases h
  · intro h; exact c102_returns hp hs h

omit [Lawful β] in
/-- **C102** If `parse_metadata` refuses the frame then so does `parse_record`, for every buffer and every visitor: with the same error, and the
parser is left in the same state. -/
theorem c102_record {O : Type} (p : Parser β) (v : Visitor Cow O) {e : Fault} (h : (P.metadata p).res = .error e) :
    (P.record v p).res = .error e ∧ (P.record v p).st = (P.metadata p).st := by
  unfold P.metadata P.record at *
  rcases hp : ((parseHeader : P β Header) p) with ⟨r, q, l⟩
  cases r with
  | error x =>
    rw [P.bind_err hp] at h ⊢
    rw [P.bind_err hp]
    cases h
    exact ⟨rfl, rfl⟩
  | ok hd =>
    rw [P.bind_ok hp] at h ⊢
    rw [P.bind_ok hp]
    dsimp only at h ⊢
    rw [(c03_fast_path v hd q).1, (c03_fast_path v hd q).2]
    unfold P.recordWithHeaderGeneral
    rcases hm : (P.metadataWithHeader hd : P β _) q with ⟨r', q', l'⟩
    rw [hm] at h
    cases h
    rw [P.bind_err hm]
    exact ⟨rfl, rfl⟩

/-! ## Concrete cases -/

/-- The outcome of `parse_metadata` on bytes in three pieces: the body, one field of the trailer and how far the outer parser got. -/
def demoFrame (bs : List Byte) : Except ParseError (List Byte × Option Nat × Nat) :=
  match P.metadata (Parser.new (⟨[⟨3, bs.take 5⟩, ⟨70, (bs.drop 5).take 6⟩, ⟨9, bs.drop 11⟩].filter fun s => s.data ≠ []⟩ : ChunkBuf) demoAllCfg) with
  | ⟨.ok (c, md), st, _⟩ => match ((P.rest : P Cursor (Cow Byte)) c).res with
    | .ok x => .ok (x.data, md.sampleId.tid.map BitVec.toNat, st.data.offset)
    | .error _ => .error .eof
  | ⟨.error (.err e), _, _⟩ => .error e
  | ⟨.error _, _, _⟩ => .error .eof

/-- A frame of an unknown type, of a type without trailer, and the four ways in which a frame can be wrong. -/
theorem c102_example :
    [[77, 0, 0, 0, 0, 0, 27, 0, 1, 2, 3, 6, 0, 0, 0, 7, 0, 0, 0, 8, 0, 0, 0, 0, 0, 0, 0, 255],
     [9, 0, 0, 0, 0, 0, 11, 0, 1, 2, 3, 4],
     [9, 0, 0, 0, 0, 0, 11],
     [9, 0, 0, 0, 0, 0, 11, 0, 1, 2],
     [9, 0, 0, 0, 0, 0, 7, 0, 1, 2],
     [77, 0, 0, 0, 0, 0, 23, 0, 6, 0, 0, 0, 7, 0, 0, 0, 8, 0, 0, 0, 0, 0, 0, 0]].map demoFrame =
    [.ok ([1, 2, 3], some 7, 27), .ok ([1, 2, 3], none, 11), .error .eof, .error .eof,
     .error (.custom .invalidRecord "header size was too small to be valid"),
     .error (.custom .invalidRecord "config has sample_id_all bit set but record does not have enough data to store the sample_id")] := by
  decide +kernel

end Perf
