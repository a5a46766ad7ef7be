import Verif.Props.LoopExact
import Verif.Proof.WErrRecord
/-!
# C100: exactly which error is returned, for any input

C97 says for which input there is an error; Spec/Wrong.lean says which. Every error but `Eof` is returned for certain bytes only, which are
written down there; `Eof` is what remains.
-/
namespace Perf
variable {β : Type} [ParseBuf β] [LawfulEof β] {F : List Chunk → β → Prop} {cs : List Chunk} {p : Parser β} {f : Flat} {o : Order} {cfg : ParseConfig}
  {O : Type}

/-! ## The frame -/

theorem PartWrong.ne_eof {native : Bool} {rf : U64} {hw : Bool} {b : Nat} {bs : List Byte} {e : ParseError} (h : PartWrong native o rf hw b bs e) :
    e ≠ .eof := by
  cases h <;> exact fun h => (by cases h)

theorem BodyWrong.ne_eof {misc : U16} {w : Nat → Nat → Option Nat} {t : Nat} {bs : List Byte} {e : ParseError} (h : BodyWrong o cfg misc w t bs e) :
    e ≠ .eof := by
  cases h with
  | sample b s d rest e _ _ h => exact h.ne_eof
  | _ => exact fun h => (by cases h)

theorem RecordWrong.ne_eof {e : ParseError} (h : RecordWrong o cfg cs e) : e ≠ .eof := by
  cases h with
  | body _ _ _ _ _ _ _ _ _ _ h => exact h.ne_eof
  | _ => exact fun h => (by cases h)

theorem BodyWrong.congr {cfg' : ParseConfig} (h1 : cfg'.readFormat = cfg.readFormat) (h2 : cfg'.sampleType = cfg.sampleType)
    (h3 : cfg'.branchHwIndex = cfg.branchHwIndex) (h4 : cfg'.regsUser = cfg.regsUser) (h5 : cfg'.regsIntr = cfg.regsIntr) (h6 : cfg'.endian = cfg.endian)
    {misc : U16} {w : Nat → Nat → Option Nat} {t : Nat} {bs : List Byte} {e : ParseError} (h : BodyWrong o cfg misc w t bs e) :
    BodyWrong o cfg' misc w t bs e := by
  cases h with
  | readGroup pid tid tl k1 => exact .readGroup pid tid tl (h1.symm ▸ k1)
  | readFlags pid tid tl k1 k2 => exact .readFlags pid tid tl (h1.symm ▸ k1) (h1.symm ▸ k2)
  | sample b s d rest e k1 k2 k3 =>
    have := @BodyWrong.sample o cfg' misc w b s d rest e
    rw [h1, h2, h3, h4, h5, h6] at this
    exact this k1 k2 k3
  | buildId pid tid addr len pgoff size r1 r2 id tl k1 k2 k3 => exact .buildId pid tid addr len pgoff size r1 r2 id tl k1 k2 k3
  | namespaces pid tid nr tl k1 k2 => exact .namespaces pid tid nr tl (h6.symm ▸ k1) k2

theorem BodyWrong.withMisc (m misc : U16) {w : Nat → Nat → Option Nat} {t : Nat} {bs : List Byte} {e : ParseError} :
    BodyWrong o (cfg.withMisc m) misc w t bs e ↔ BodyWrong o cfg misc w t bs e :=
  ⟨.congr (ParseConfig.withMisc_readFormat ..).symm (ParseConfig.withMisc_sampleType ..).symm (ParseConfig.withMisc_branchHwIndex ..).symm rfl rfl rfl,
   .congr (ParseConfig.withMisc_readFormat ..) (ParseConfig.withMisc_sampleType ..) (ParseConfig.withMisc_branchHwIndex ..) rfl rfl rfl⟩

theorem trailerOf_none {ty : U32} (h : ty.toNat = 1 ∨ ty.toNat = 9) : trailerOf cfg ty = 0 := by
  unfold trailerOf
  rw [if_neg (fun h' => h.elim h'.2.1 h'.2.2)]

theorem trailerOf_some {ty : U32} (h : ¬ (ty.toNat = 1 ∨ ty.toNat = 9)) : trailerOf cfg ty = SampleId.estimateLen cfg := by
  rw [estimateLen_eq]
  unfold trailerOf trailerLen
  cases cfg.sampleIdAll with
  | false => rw [if_neg (fun h' => (by cases h'.1))]; rfl
  | true => rw [if_pos ⟨rfl, fun h' => h (.inl h'), fun h' => h (.inr h')⟩]; rfl

/-- The header of the input. -/
theorem headerAt_unique (hs : Src f.cfg o) {ty : U32} {misc size : U16} {tl : List Byte} (h : f.s.bytes = e32 o ty ++ e16 o misc ++ e16 o size ++ tl) :
    8 ≤ f.s.bytes.length ∧ ty = (headerAt f).type_ ∧ misc = (headerAt f).misc ∧ size = (headerAt f).size ∧ tl = (f.adv 8).s.bytes := by
  have h8 : 8 ≤ f.s.bytes.length := by rw [h]; simp; omega
  have h1 := header_layout hs h8
  rw [h] at h1
  have l : ∀ (a : U32) (b c : U16), (e32 o a ++ e16 o b ++ e16 o c).length = 8 := fun a b c => by simp
  obtain ⟨h2, h3⟩ := List.append_inj h1 (by rw [l, l])
  obtain ⟨h2, h4⟩ := List.append_inj h2 (by simp)
  obtain ⟨h2, h5⟩ := List.append_inj h2 (by simp)
  refine ⟨h8, ?_, ?_, ?_, ?_⟩
  · rw [← hs.conv32 ty, h2, hs.conv32]
  · rw [← hs.conv16 misc, h5, hs.conv16]
  · rw [← hs.conv16 size, h4, hs.conv16]
  · rw [h3, Flat.adv_bytes, h]

/-- An error other than `Eof` is returned exactly if the record is wrong in this way. -/
theorem Woven.record_wrong (hw : f.cfg.Wf) (hcs : f.s.bytes = cs.flatMap Chunk.data) (hfin : f.s.fin = .eof) (hs : Src f.cfg o) {e : ParseError}
    (he : e ≠ .eof) : Woven.record cs f = .error (.err e) ↔ RecordWrong o f.cfg cs e := by
  unfold Woven.record
  by_cases h8 : f.s.bytes.length < 8
  · rw [if_pos h8]
    constructor
    · intro h; cases h; exact absurd rfl he
    · intro h
      exfalso
      cases h with
      | size _ _ _ _ h => rw [← hcs] at h; have := (headerAt_unique hs h).1; omega
      | trailer _ _ _ _ h => rw [← hcs] at h; have := (headerAt_unique hs h).1; omega
      | body _ _ _ _ _ _ _ h =>
        rw [← hcs, List.append_assoc, List.append_assoc] at h
        have := (headerAt_unique hs h).1
        omega
  rw [if_neg h8]
  have hlay := header_layout hs (by omega : 8 ≤ f.s.bytes.length)
  have hlen : (f.adv 8).s.bytes.length = f.s.bytes.length - 8 := by rw [Flat.adv_bytes, List.length_drop]
  -- what `RecordWrong` says about this header
  have hinv : RecordWrong o f.cfg cs e → ((headerAt f).size.toNat < 8 ∧ e = .custom .invalidRecord "header size was too small to be valid") ∨
      (8 ≤ (headerAt f).size.toNat ∧ (headerAt f).size.toNat - 8 ≤ (f.adv 8).s.bytes.length ∧
        (headerAt f).size.toNat < 8 + trailerOf f.cfg (headerAt f).type_ ∧ e = .custom .invalidRecord
          ("config has sample_id_all bit set but record does not have enough data " ++ "to store the sample_id")) ∨
      (8 + trailerOf f.cfg (headerAt f).type_ ≤ (headerAt f).size.toNat ∧ (headerAt f).size.toNat - 8 ≤ (f.adv 8).s.bytes.length ∧
        BodyWrong o f.cfg (headerAt f).misc (bodyLie cs) (headerAt f).type_.toNat
          ((f.adv 8).s.bytes.take ((headerAt f).size.toNat - 8 - trailerOf f.cfg (headerAt f).type_)) e) := by
    intro h
    cases h with
    | size ty misc size tl h h1 =>
      rw [← hcs] at h
      obtain ⟨-, rfl, rfl, rfl, rfl⟩ := headerAt_unique hs h
      exact .inl ⟨h1, rfl⟩
    | trailer ty misc size tl h h1 h2 h3 =>
      rw [← hcs] at h
      obtain ⟨-, rfl, rfl, rfl, rfl⟩ := headerAt_unique hs h
      exact .inr (.inl ⟨h1, by omega, h3, rfl⟩)
    | body ty misc size body trailer tl _ h h1 h2 h3 =>
      rw [← hcs, List.append_assoc, List.append_assoc] at h
      obtain ⟨-, rfl, rfl, rfl, h4⟩ := headerAt_unique hs h
      have h5 := congrArg List.length h4
      simp only [List.length_append] at h5
      refine .inr (.inr ⟨by omega, by omega, ?_⟩)
      rw [← h4, show (headerAt f).size.toNat - 8 - trailerOf f.cfg (headerAt f).type_ = body.length by omega, List.take_left]
      exact h3
  have key : ∀ md : Metadata, md.ty = (headerAt f).type_ → md.misc = (headerAt f).misc → 8 + trailerOf f.cfg (headerAt f).type_ ≤ (headerAt f).size.toNat →
      (headerAt f).size.toNat - 8 ≤ (f.adv 8).s.bytes.length →
      ((match (parseBody md.ty : Woven (bodyLie cs) (Record List))
          (((f.adv 8).region ((headerAt f).size.toNat - 8 - trailerOf f.cfg (headerAt f).type_)).withMisc md.misc) with
        | .error e => .error e
        | .ok (x, _) => .ok (x, md, (headerAt f).size.toNat) : Except Fault (Record List × Metadata × Nat)) = .error (.err e) ↔
      RecordWrong o f.cfg cs e) := by
    intro md hty hmisc hge hle
    have hlt := (headerAt f).size_lt
    have hbody : _ ↔ BodyWrong o (f.cfg.withMisc (headerAt f).misc) (f.cfg.withMisc (headerAt f).misc).misc (fun i n => bodyLie cs (0 + i) n)
        (headerAt f).type_.toNat ((f.adv 8).s.bytes.take ((headerAt f).size.toNat - 8 - trailerOf f.cfg (headerAt f).type_)) e :=
      WErr.body (w := bodyLie cs) (hs.withMisc (headerAt f).misc) (hw.withMisc (headerAt f).misc) (headerAt f).type_
        (((f.adv 8).region ((headerAt f).size.toNat - 8 - trailerOf f.cfg (headerAt f).type_)).withMisc (headerAt f).misc) rfl (by
          show ((f.adv 8).s.bytes.take _).length < _
          rw [List.length_take]
          omega) e he
    rw [ParseConfig.withMisc_misc, BodyWrong.withMisc] at hbody
    simp only [Nat.zero_add] at hbody
    have hmatch : ∀ x : Except Fault (Record List × Flat), (match x with
        | .error e => .error e
        | .ok (x, _) => .ok (x, md, (headerAt f).size.toNat) : Except Fault (Record List × Metadata × Nat)) = .error (.err e) ↔ x = .error (.err e) := by
      rintro (x | ⟨a, g⟩)
      · exact ⟨fun h => (by cases h; rfl), fun h => (by cases h; rfl)⟩
      · exact ⟨fun h => (by cases h), fun h => (by cases h)⟩
    rw [hmatch, hty, hmisc, hbody]
    constructor
    · intro h
      refine .body (headerAt f).type_ (headerAt f).misc (headerAt f).size _
        (((f.adv 8).s.bytes.take ((headerAt f).size.toNat - 8)).drop ((headerAt f).size.toNat - 8 - trailerOf f.cfg (headerAt f).type_))
        ((f.adv 8).s.bytes.drop ((headerAt f).size.toNat - 8)) e ?_ ?_ ?_ h
      · rw [← hcs]
        have h1 : (f.adv 8).s.bytes.take ((headerAt f).size.toNat - 8 - trailerOf f.cfg (headerAt f).type_) =
            ((f.adv 8).s.bytes.take ((headerAt f).size.toNat - 8)).take ((headerAt f).size.toNat - 8 - trailerOf f.cfg (headerAt f).type_) := by
          rw [List.take_take, Nat.min_eq_left (by omega)]
        rw [h1]
        simp only [List.append_assoc]
        rw [← List.append_assoc (List.take _ (List.take _ _)), List.take_append_drop, List.take_append_drop, ← List.append_assoc (e16 o _), ← List.append_assoc,
          ← List.append_assoc]
        exact hlay
      · rw [List.length_drop, List.length_take]; omega
      · rw [List.length_drop, List.length_take, List.length_take]; omega
    · intro h
      rcases hinv h with ⟨h1, -⟩ | ⟨-, -, h1, -⟩ | ⟨-, -, h1⟩
      · omega
      · omega
      · exact h1
  rcases Spec.metadata_cases (headerAt f) (f.adv 8) with ⟨m1, m2⟩ | ⟨m1, m2, m3⟩ | ⟨m1, m2, m3, m4⟩ | ⟨m1, m2, m3, m4, m5⟩ | ⟨m1, m2, m3, m4, sid, g, -, m5⟩
  · rw [m2]
    dsimp only
    constructor
    · intro h
      cases h
      exact .size _ _ _ _ (hcs ▸ hlay) m1
    · intro h
      rcases hinv h with ⟨-, rfl⟩ | ⟨h1, -⟩ | ⟨h1, -⟩
      · rfl
      · omega
      · omega
  · rw [m3, show (f.adv 8).s.fin = .eof from hfin]
    dsimp only
    constructor
    · intro h; cases h; exact absurd rfl he
    · intro h
      rcases hinv h with ⟨h1, -⟩ | ⟨-, h1, -⟩ | ⟨-, h1, -⟩ <;> omega
  · rw [m4]
    have h0 := trailerOf_none (cfg := f.cfg) m3
    have := key (Metadata.new (headerAt f) SampleId.default) rfl rfl (by omega) m2
    rw [h0, Nat.sub_zero] at this
    exact this
  · rw [m5]
    have h0 := trailerOf_some (cfg := f.cfg) m3
    have m4 : (headerAt f).size.toNat - 8 < SampleId.estimateLen f.cfg := m4
    dsimp only
    constructor
    · intro h
      cases h
      exact .trailer _ _ _ _ (hcs ▸ hlay) m1 (by rw [← hcs, ← Flat.adv_bytes]; omega) (by omega)
    · intro h
      rcases hinv h with ⟨h1, -⟩ | ⟨-, -, -, rfl⟩ | ⟨h1, -⟩
      · omega
      · rfl
      · omega
  · rw [m5]
    have h0 := trailerOf_some (cfg := f.cfg) m3
    have m4 : SampleId.estimateLen f.cfg ≤ (headerAt f).size.toNat - 8 := m4
    have := key (Metadata.new (headerAt f) sid) rfl rfl (by omega) m2
    rw [h0] at this
    exact this

/-! ## The theorems -/

/-- **C100** Every error but `Eof` is returned for exactly the bytes that are wrong in the way it names, whoever the visitor is. -/
theorem c100_wrong (hF : SewnBuf F) (hp : Lies F cs p f) (hs : Src f.cfg o) {e : ParseError} (he : e ≠ .eof) :
    (P.record pairVisitor p).res = .error (.err e) ↔ RecordWrong o f.cfg cs e := by
  have hd := hp.record hF
  rw [← Woven.record_wrong hp.rep.wf hp.bytes hp.fin hs he]
  constructor
  · intro h
    rcases hm : Woven.record cs f with x | ⟨x, md, n⟩ <;> rw [hm] at hd
    · rw [hd pairVisitor] at h; cases h; rfl
    · obtain ⟨a, -, hv⟩ := hd
      rw [(hv pairVisitor).1] at h
      cases a <;> cases h
  · intro h
    rw [h] at hd
    exact hd pairVisitor

/-- **C100** Nothing else matters to it: every visitor is given the same error, without being called. -/
theorem c100_visit (hF : SewnBuf F) (hp : Lies F cs p f) (hs : Src f.cfg o) {e : ParseError} (h : RecordWrong o f.cfg cs e) (v : Visitor Cow O) :
    (P.record v p).res = .error (.err e) := by
  have hd := hp.record hF
  rw [(Woven.record_wrong hp.rep.wf hp.bytes hp.fin hs h.ne_eof).2 h] at hd
  exact hd v

/-- **C100** `Eof` is returned exactly if the input neither starts with a record that is taken nor with one that is wrong. -/
theorem c100_eof (hF : SewnBuf F) (hp : Lies F cs p f) (hs : Src f.cfg o) :
    (P.record pairVisitor p).res = .error (.err .eof) ↔
      (∀ (r : KRecord) (d : Dropped) (extra : List Byte), ¬ r.StrewnFrom o f.cfg cs d extra) ∧ ∀ e, ¬ RecordWrong o f.cfg cs e := by
  constructor
  · intro h
    refine ⟨fun r d extra h' => ?_, fun e h' => ?_⟩
    · obtain ⟨⟨a, h1, -⟩, -⟩ := hp.returned hF hs h'
      rw [h] at h1
      cases h1
    · have h1 := (c100_wrong hF hp hs h'.ne_eof).2 h'
      rw [h] at h1
      exact h'.ne_eof (by cases h1; rfl)
  · rintro ⟨h1, h2⟩
    rcases c97_visit hF hp hs with ⟨r, d, extra, h, -⟩ | ⟨-, e, h⟩
    · exact absurd h (h1 r d extra)
    · rcases c01_parse_record hp.rep with ⟨y, h3⟩ | ⟨e', h3⟩
      · rw [show P.parseRecord p = P.record (recordVisitor Cow) p from rfl, h] at h3
        cases h3
      · rw [show P.parseRecord p = P.record (recordVisitor Cow) p from rfl, h] at h3
        cases h3
        by_cases he : e' = .eof
        · rw [← he]; exact h pairVisitor
        · exact absurd ((c100_wrong hF hp hs he).1 (h pairVisitor)) (h2 e')

/-! ## Everything that can happen -/

/-- The outcome of a call for the record that the input starts with. -/
def Outcome (o : Order) (cfg : ParseConfig) (pieces : List Chunk) : Except Fault (Record List × Metadata) → Prop
  | .ok y => ∃ (r : KRecord) (d : Dropped) (extra : List Byte), r.StrewnFrom o cfg pieces d extra ∧
      y = (r.body.valueStrewn cfg r.misc (bodyLie pieces), r.metadata cfg)
  | .error (.err e) => RecordWrong o cfg pieces e ∨ e = .eof ∧ (∀ (r : KRecord) (d : Dropped) (extra : List Byte), ¬ r.StrewnFrom o cfg pieces d extra) ∧
      ∀ e', ¬ RecordWrong o cfg pieces e'
  | .error _ => False

/-- **C100** There is one outcome at most. In particular, no record is wrong in two ways, and none that is wrong is taken. -/
theorem c100_unique (hw : cfg.Wf) (hs : Src cfg o) {x y : Except Fault (Record List × Metadata)} (hx : Outcome o cfg cs x) (hy : Outcome o cfg cs y) :
    x = y := by
  let f : Flat := .here 0 (cs.flatMap Chunk.data) cfg
  have taken : ∀ {r : KRecord} {d : Dropped} {extra : List Byte} {e : ParseError}, r.StrewnFrom o cfg cs d extra → RecordWrong o cfg cs e → False := by
    intro r d extra e h h'
    have h1 := Woven.record_strewn (f := f) hw rfl hs h
    rw [(Woven.record_wrong (f := f) hw rfl rfl hs h'.ne_eof).2 h'] at h1
    cases h1
  have wrong : ∀ {e e' : ParseError}, RecordWrong o cfg cs e → RecordWrong o cfg cs e' → e = e' := by
    intro e e' h h'
    have h1 := (Woven.record_wrong (f := f) hw rfl rfl hs h'.ne_eof).2 h'
    rw [(Woven.record_wrong (f := f) hw rfl rfl hs h.ne_eof).2 h] at h1
    cases h1
    rfl
  rcases x with (e | _ | _) | x
  · rcases y with (e' | _ | _) | y
    · rcases hx with hx | ⟨rfl, -, hx⟩
      · rcases hy with hy | ⟨-, -, hy⟩
        · rw [wrong hx hy]
        · exact absurd hx (hy e)
      · rcases hy with hy | ⟨rfl, -, hy⟩
        · exact absurd hy (hx e')
        · rfl
    · exact hy.elim
    · exact hy.elim
    · obtain ⟨r, d, extra, h, -⟩ := hy
      rcases hx with hx | ⟨-, hx, -⟩
      · exact (taken h hx).elim
      · exact absurd h (hx r d extra)
  · exact hx.elim
  · exact hx.elim
  · obtain ⟨r, d, extra, h, rfl⟩ := hx
    rcases y with (e' | _ | _) | y
    · rcases hy with hy | ⟨-, hy, -⟩
      · exact (taken h hy).elim
      · exact absurd h (hy r d extra)
    · exact hy.elim
    · exact hy.elim
    · obtain ⟨r', d', extra', h', rfl⟩ := hy
      obtain ⟨h1, h2, -⟩ := c97_unambiguous hw hs h h'
      rw [h1, h2]

/-- The call has this outcome. -/
theorem Lies.outcome (hF : SewnBuf F) (hp : Lies F cs p f) (hs : Src f.cfg o) : Outcome o f.cfg cs (seenAs (P.record pairVisitor p).res) := by
  rcases c97_visit hF hp hs with ⟨r, d, extra, h, -⟩ | ⟨h, e, he⟩
  · obtain ⟨⟨a, h1, h2⟩, -⟩ := hp.returned hF hs h
    rw [h1]
    exact ⟨r, d, extra, h, by rw [← h2]⟩
  · rcases c01_parse_record hp.rep with ⟨y, h3⟩ | ⟨e', h3⟩
    · rw [show P.parseRecord p = P.record (recordVisitor Cow) p from rfl, he] at h3
      cases h3
    · rw [show P.parseRecord p = P.record (recordVisitor Cow) p from rfl, he] at h3
      cases h3
      have h4 := he pairVisitor
      rw [h4]
      show _ ∨ _
      by_cases h5 : e' = .eof
      · rw [h5] at h4
        exact .inr ⟨h5, (c100_eof hF hp hs).1 h4⟩
      · exact .inl ((c100_wrong hF hp hs h5).1 h4)

/-- **C100** What a call returns, exactly: for every input, in any pieces at any addresses, the value or the error. -/
theorem c100_exact (hF : SewnBuf F) (hp : Lies F cs p f) (hs : Src f.cfg o) (x : Except Fault (Record List × Metadata)) :
    seenAs (P.record pairVisitor p).res = x ↔ Outcome o f.cfg cs x := by
  constructor
  · rintro rfl
    exact hp.outcome hF hs
  · exact fun h => c100_unique hp.rep.wf hs (hp.outcome hF hs) h

/-! ## Loops -/

/-- The outcomes of a loop over these blocks. -/
def Outcomes (o : Order) (cfg : ParseConfig) : List Chunk → List (List Byte) → List (Except Fault (Record List × Metadata)) → Prop
  | _, [], xs => xs = []
  | cs, b :: bs, xs => ∃ x xs', xs = x :: xs' ∧ Outcome o cfg cs x ∧ Outcomes o cfg (dropPieces cs b.length) bs xs'

theorem Outcomes.unique (hw : cfg.Wf) (hs : Src cfg o) {bs : List (List Byte)} {xs ys : List (Except Fault (Record List × Metadata))}
    (h : Outcomes o cfg cs bs xs) (h' : Outcomes o cfg cs bs ys) : xs = ys := by
  induction bs generalizing cs xs ys with
  | nil => rw [show xs = [] from h, show ys = [] from h']
  | cons b bs ih =>
    obtain ⟨x, xs', rfl, h1, h2⟩ := h
    obtain ⟨y, ys', rfl, h3, h4⟩ := h'
    rw [ih h2 h4, c100_unique hw hs h1 h3]

theorem Lies.outcomes (hF : SewnBuf F) (hp : Lies F cs p f) (hs : Src f.cfg o) :
    Outcomes o f.cfg cs (cut f.cfg f.s.bytes) ((visitMany pairVisitor (cut f.cfg f.s.bytes).length p).1.map seenAs) := by
  generalize hn : f.s.bytes.length = n
  induction n using Nat.strongRecOn generalizing p f cs with
  | _ n ih =>
    by_cases h : f.s.bytes = []
    · rw [h, cut_nil]
      rfl
    · have hpos := firstLen_pos (cfg := f.cfg) h
      have hle := firstLen_le f.cfg f.s.bytes
      have i1 := ih (n - firstLen f.cfg f.s.bytes) (by omega) (hp.after hF pairVisitor) hs (by rw [Flat.adv_bytes, List.length_drop, hn])
      rw [Flat.adv_bytes, Flat.adv_cfg] at i1
      rw [cut_cons f.cfg h]
      refine ⟨seenAs (P.record pairVisitor p).res, _, rfl, hp.outcome hF hs, ?_⟩
      rw [List.length_take, Nat.min_eq_left hle]
      exact i1

/-- **C100** What a loop returns, exactly: for every input, call by call, the values and the errors. -/
theorem c100_loop (hF : SewnBuf F) (hp : Lies F cs p f) (hs : Src f.cfg o) (xs : List (Except Fault (Record List × Metadata))) :
    (visitMany pairVisitor (cut f.cfg f.s.bytes).length p).1.map seenAs = xs ↔ Outcomes o f.cfg cs (cut f.cfg f.s.bytes) xs := by
  constructor
  · rintro rfl
    exact hp.outcomes hF hs
  · exact fun h => Outcomes.unique hp.rep.wf hs (hp.outcomes hF hs) h

/-- **C100** For a ring buffer, or any other input in slices that are not empty, at any addresses. -/
theorem c100_pieces (ps : List Slice) (h : ∀ s ∈ ps, s.data ≠ []) (hw : cfg.Wf) (hs : Src cfg o) (xs : List (Except Fault (Record List × Metadata))) :
    (visitMany pairVisitor (cut cfg (piecesData ps)).length (Parser.new (⟨ps⟩ : ChunkBuf) cfg)).1.map seenAs = xs ↔
    Outcomes o cfg (ps.map fun s => ⟨.external s.addr, s.data⟩) (cut cfg (piecesData ps)) xs :=
  c100_loop SewnBuf.chunkBuf (Lies.chunkBuf ps h hw) hs xs

/-- **C100** For one slice at any address. -/
theorem c100_slice (a : Nat) (bs : List Byte) (hw : cfg.Wf) (hs : Src cfg o) (xs : List (Except Fault (Record List × Metadata))) :
    (visitMany pairVisitor (cut cfg bs).length (Parser.new (⟨a, bs⟩ : Slice) cfg)).1.map seenAs = xs ↔
    Outcomes o cfg (if bs = [] then [] else [⟨.external a, bs⟩]) (cut cfg bs) xs :=
  c100_loop SewnBuf.slice (Lies.slice a bs hw) hs xs

/-! ## Through a reader -/

/-- A buffer that lends all it has at once, not at any fixed address. Readers are compared with it. -/
structure LentBuf where
  data : List Byte

instance : ParseBuf LentBuf where
  chunk s := (if s.data = [] then .error (.err .eof) else .ok ⟨.temporary, s.data⟩, s)
  advance s n := if n ≤ s.data.length then some ⟨s.data.drop n⟩ else none
  hint s := some s.data.length
  steps s := s.data.length

instance : LawfulEof LentBuf where
  Rep b s := s.bytes = b.data ∧ s.fin = .eof ∧ s.al = .temp
  chunk_law := by
    rintro ⟨data⟩ ⟨bytes, al, fin⟩ ⟨h1, h2, h3⟩
    dsimp only at h1 h2 h3
    subst h1 h2 h3
    by_cases hd : bytes = []
    · subst hd
      simp only [ParseBuf.chunk, if_pos, ChunkLaw]
      exact ⟨trivial, trivial⟩
    · simp only [ParseBuf.chunk, if_neg hd, ChunkLaw]
      refine ⟨hd, List.prefix_rfl, trivial, ⟨trivial, trivial, trivial⟩, Nat.le_refl _, trivial, fun k hk => ?_⟩
      refine ⟨⟨bytes.drop k⟩, by simp [ParseBuf.advance, hk], ⟨rfl, rfl, rfl⟩, ?_, ?_⟩
      · simp only [ParseBuf.steps, List.length_drop]; omega
      · intro B hB h hh
        have := hB _ rfl
        simp only [ParseBuf.hint, Option.some.injEq, List.length_drop] at hh this
        omega
  eof_law _ _ h _ _ := ⟨h, rfl⟩

/-- The pieces of a reader: one, which is not borrowed. -/
def lentPieces (bs : List Byte) : List Chunk := if bs = [] then [] else [⟨.temporary, bs⟩]

theorem SewnBuf.lentBuf : SewnBuf (fun cs (s : LentBuf) => cs = Perf.lentPieces s.data) where
  nonempty cs b hb c hc := by
    subst hb
    unfold Perf.lentPieces at hc
    split at hc
    · cases hc
    · rw [List.mem_singleton.1 hc]; assumption
  chunk _ _ h := h
  eof b hb := by
    unfold Perf.lentPieces at hb
    split at hb
    · exact if_pos ‹_›
    · cases hb
  first c cs b hb := by
    unfold Perf.lentPieces at hb
    split at hb
    · cases hb
    · cases hb; exact if_neg ‹_›
  advance cs b n b' hb hadv := by
    subst hb
    change (if n ≤ b.data.length then _ else _) = _ at hadv
    split at hadv <;> cases hadv
    rename_i hn
    unfold Perf.lentPieces
    by_cases h0 : b.data = []
    · rw [if_pos h0, if_pos (by rw [h0]; simp)]; rfl
    · rw [if_neg h0, dropPieces_cons]
      show (if n < b.data.length then _ else _) = _
      by_cases hl : n < b.data.length
      · rw [if_pos hl, if_neg (by intro hd; have := List.drop_eq_nil_iff.1 hd; omega)]
        rfl
      · rw [if_neg hl, if_pos (List.drop_eq_nil_iff.2 (by omega))]
        rfl

theorem Lies.lentBuf (bs : List Byte) (hw : cfg.Wf) :
    Lies (fun cs (s : LentBuf) => cs = Perf.lentPieces s.data) (Perf.lentPieces bs) (Parser.new (⟨bs⟩ : LentBuf) cfg) (.through bs .eof cfg) where
  rep := ⟨⟨rfl, rfl, rfl⟩, rfl, rfl, hw⟩
  sewn := rfl
  bytes := by
    show bs = (Perf.lentPieces bs).flatMap _
    unfold Perf.lentPieces
    split
    · assumption
    · simp
  fin := rfl

/-- **C100** What a call returns, exactly, for every reader, whatever the portions it delivers, as long as it then says that there is no more. -/
theorem c100_reader (es : List ReadEvent) (hf : scriptFin es = .eof) (hw : cfg.Wf) (hs : Src cfg o) (x : Except Fault (Record List × Metadata)) :
    seenAs (P.record pairVisitor (Parser.new (⟨[], es⟩ : BufReader) cfg)).res = x ↔ Outcome o cfg (lentPieces (scriptBytes es)) x := by
  rw [c86_chunking (RepP.reader es hw) (Lies.lentBuf (scriptBytes es) hw).rep ⟨rfl, hf, rfl⟩ rfl rfl]
  exact c100_exact SewnBuf.lentBuf (Lies.lentBuf (scriptBytes es) hw) hs x

/-- **C100** And what a loop over it returns. -/
theorem c100_reader_loop (es : List ReadEvent) (he : Settles es) (hf : (scriptFin es).kind = .eof) (hw : cfg.Wf) (hs : Src cfg o)
    (xs : List (Except Fault (Record List × Metadata))) :
    (visitMany pairVisitor (cut cfg (scriptBytes es)).length (Parser.new (⟨[], es⟩ : BufReader) cfg)).1.map seenAs = xs ↔
    Outcomes o cfg (lentPieces (scriptBytes es)) (cut cfg (scriptBytes es)) xs := by
  have h1 := @c86_loops_temporary _ BufReader _ BufReader.settled LentBuf _ _ pairVisitor (cut cfg (scriptBytes es)).length _ _
    (.through (scriptBytes es) (scriptFin es) cfg) _ (RepP.settled he hw) (Lies.lentBuf (scriptBytes es) hw).rep rfl rfl ⟨rfl, settled_eof he hf, rfl⟩ hf
  rw [h1]
  exact c100_loop SewnBuf.lentBuf (Lies.lentBuf (scriptBytes es) hw) hs xs

/-! ## Cases -/

/-- Call chains and stacks are asked for. -/
def demoWrongCfg : ParseConfig := partsCfg 0 0x2020 false false 0 0
/-- A sample with the call chain `[7]`, and a stack of two bytes of which three are said to be in use. -/
def demoWrongStack : List Byte :=
  [9, 0, 0, 0, 0, 0, 42, 0, 1, 0, 0, 0, 0, 0, 0, 0, 7, 0, 0, 0, 0, 0, 0, 0, 2, 0, 0, 0, 0, 0, 0, 0, 0xaa, 0xbb, 3, 0, 0, 0, 0, 0, 0, 0]

theorem demoWrongStack_wrong : RecordWrong .little demoWrongCfg (lentPieces demoWrongStack)
    (.custom .invalidRecord "stack dyn_size was greater than the record size") := by
  refine .body 9 0 42 (demoWrongStack.drop 8) [] [] _ (by decide +kernel) (by decide +kernel) (by decide +kernel) ?_
  refine .sample 13 { demoSampleBody with callchain := [7] } {} (demoWrongStack.drop 24) _ (by decide +kernel) ?_ ?_
  · constructor <;> first | (intro h; revert h; decide +kernel) | decide +kernel
  · exact .stack [0xaa, 0xbb] 3 [] (by decide) (by decide)

/-- `c100_reader` for it. -/
example : seenAs (P.record pairVisitor (Parser.new (⟨[], [.data (demoWrongStack.take 30), .data (demoWrongStack.drop 30)]⟩ : BufReader) demoWrongCfg)).res =
    .error (.err (.custom .invalidRecord "stack dyn_size was greater than the record size")) :=
  (c100_reader (o := .little) [.data (demoWrongStack.take 30), .data (demoWrongStack.drop 30)] (by decide +kernel) (ParseConfig.wf_little _ _) (Src.little _ _) _).2
    (.inl (by rw [show scriptBytes _ = demoWrongStack by decide +kernel]; exact demoWrongStack_wrong))

/-- One record for each message, as they come out of the model. -/
def demoWrongs : List (ParseConfig × List Byte × ParseError) :=
  [(demoCfg, [2, 0, 0, 0, 0, 0, 7, 0], .custom .invalidRecord "header size was too small to be valid"),
   (partsCfg 0 6 true false 0 0, [2, 0, 0, 0, 0, 0, 16, 0] ++ List.replicate 8 0, .custom .invalidRecord
      "config has sample_id_all bit set but record does not have enough data to store the sample_id"),
   (partsCfg 8 0 false false 0 0, [8, 0, 0, 0, 0, 0, 16, 0] ++ List.replicate 8 1, .custom .unsupportedConfig
      "attempted to parse a SingleRead with a config that has GROUP set in read_format"),
   (partsCfg 32 0 false false 0 0, [8, 0, 0, 0, 0, 0, 16, 0] ++ List.replicate 8 1, .unknownFlags),
   (partsCfg 32 0x10 false false 0 0, [9, 0, 0, 0, 0, 0, 8, 0], .unknownFlags),
   (partsCfg 12 0x10 false false 0 0, [9, 0, 0, 0, 0, 0, 16, 0, 0, 0, 0, 0, 0, 0, 0, 128], .custom .invalidRecord
      "number of elements in group read was too large for data type"),
   (partsCfg 12 0x10 false false 0 0, [9, 0, 0, 0, 0, 0, 16, 0, 0, 0, 0, 0, 0, 0, 0, 64], .tooManyBytes),
   (partsCfg 0 0x20 false false 0 0, [9, 0, 0, 0, 0, 0, 16, 0, 0, 0, 0, 0, 0, 0, 0, 32], .tooManyBytes),
   (partsCfg 0 0x800 false false 0 0, [9, 0, 0, 0, 0, 0, 16, 0, 0, 0, 0, 0, 0, 0, 0, 11], .tooManyBytes),
   (demoWrongCfg, demoWrongStack, .custom .invalidRecord "stack dyn_size was greater than the record size"),
   (demoCfg, [10, 0, 0, 0, 0, 0x40, 64, 0] ++ List.replicate 32 0 ++ [21] ++ List.replicate 23 0, .custom .invalidRecord
      "build_id had invalid length (21 > 20)"),
   (demoCfg, [16, 0, 0, 0, 0, 0, 24, 0] ++ List.replicate 15 0 ++ [16], .tooManyBytes),
   (demoCfg, [2, 0, 0, 0, 0, 0, 16, 0] ++ List.replicate 8 0, .eof)]

theorem c100_example : demoWrongs.map (fun x => match (P.record pairVisitor (Parser.new (⟨8, x.2.1⟩ : Slice) x.1)).res with
    | .error (.err e) => some e
    | _ => none) = demoWrongs.map fun x => some x.2.2 := by decide +kernel

end Perf
