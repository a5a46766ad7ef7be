import Verif.Proof.MendedAttr
import Verif.Spec.SessionAll
import Verif.Props.Mended
/-!
# C85: a whole recording, read with the corrected functions

The attr is parsed, a configuration is made from it, and the records are parsed with that configuration: C39, C40, C58, C59, C69 and
C72 without the conditions that the theorems about the crate need. As in Props/Mended.lean, the functions are those of
Model/Mended.lean and Model/MendedAttr.lean, not the code of /repo.
-/
namespace Perf
open ParserM
variable {β γ : Type} [ParseBuf β] [Lawful β] [ParseBuf γ] [Lawful γ] {O : Type} {p : Parser β} {q : Parser γ} {f g : Flat}
  {o : Order} {tl : List Byte}

/-! ## The attr -/

theorem Mend.attr_ok {a : Attr} {i : Input} (hp : RepP p f) (h : Ideal.parseAttr f.input = .ok (a, i)) :
    ((Mend.parseAttr : P β Attr) p).res = .ok a ∧ ∃ al, RepP ((Mend.parseAttr : P β Attr) p).st (i.flat al) := by
  have := Mends.attr p f.input f.s.al hp
  rw [h] at this
  obtain ⟨_, al, h1, rfl, h2⟩ := this
  exact ⟨h1, al, h2⟩

theorem Mend.attr_err {e : ParseError} (hp : RepP p f) (h : Ideal.parseAttr f.input = .error e) :
    ((Mend.parseAttr : P β Attr) p).res = .error (.err e) := by
  have := Mends.attr p f.input f.s.al hp
  rw [h] at this
  exact this

theorem kattrSizes_ge {n : Nat} (h : n ∈ kattrSizes ∨ 136 < n) : 8 ≤ n := by
  rcases h with h | h
  · simp only [kattrSizes, List.mem_cons, List.not_mem_nil, or_false] at h; omega
  · omega

theorem kattr_length (o : Order) (a : Attr) {n : Nat} (r2 : U16) (r3 : U32) (h : n ∈ kattrSizes ∨ 136 < n) :
    (kattr o a n r2 r3).length = n := by
  have h8 := kattrSizes_ge h
  rw [kattr_eq _ _ _ _ _ h]
  simp only [List.length_append, e32_length, List.length_replicate, kattrBody_length o a n r2 r3 h]
  omega

theorem Ideal.attr_enc {i : Input} (hs : Src i.cfg o) (a : Attr) (n : Nat) (r2 : U16) (r3 : U32) (h : n ∈ kattrSizes ∨ 136 < n)
    (hl : n < 2 ^ 32) (hb : i.bytes = kattr o a n r2 r3 ++ tl) : Ideal.parseAttr i = .ok (a.upTo n, i.adv n) := by
  have h8 := kattrSizes_ge h
  have hnat : (BitVec.ofNat 32 n).toNat = n := toNat_ofNat_lt hl
  have hlen := kattrBody_length o a n r2 r3 h
  rw [kattr_eq _ _ _ _ _ h] at hb
  simp only [List.append_assoc] at hb
  rw [Ideal.parseAttr_head hs a.type_ (BitVec.ofNat 32 n) hb]
  have hbytes : (i.adv 8).bytes = kattrBody o a n r2 r3 ++ List.replicate (n - 136) 0#8 ++ tl := by
    rw [Input.adv_bytes, hb, drop_head, List.append_assoc]
  have hreg : (Ideal.region (i.adv 8) (n - 8)).bytes = kattrBody o a n r2 r3 ++ List.replicate (n - 136) 0#8 ++ [] := by
    show (i.adv 8).bytes.take _ = _
    rw [hbytes, List.append_nil, List.take_left' (by rw [List.length_append, List.length_replicate, hlen]; omega)]
  have hr := IReads.attrBody (cfg := i.cfg) hs a n r2 r3 h hl (Ideal.region (i.adv 8) (n - 8)) rfl rfl hreg
  have := Ideal.attrRest_ok (t := a.type_) (s := BitVec.ofNat 32 n) (i := i.adv 8) (by rw [hnat]; exact (Attr.sizeOk_iff n).2 h)
    (by rw [hnat, hbytes, List.length_append, List.length_append, List.length_replicate, hlen]; omega)
    (by rw [hnat]; exact hr)
  rw [this, hnat, Input.adv_adv, Nat.add_sub_cancel' h8]

/-- **C85** C39 without the four extra bytes: a structure of any published size, or a larger one whose unknown part is zero, is read
exactly; fields beyond its size are zero, and the parser stands behind it, whatever follows. -/
theorem c85_attr (hp : RepP p f) (hs : Src f.cfg o) (a : Attr) (n : Nat) (r2 : U16) (r3 : U32) (h : n ∈ kattrSizes ∨ 136 < n)
    (hl : n < 2 ^ 32) (hb : f.s.bytes = kattr o a n r2 r3 ++ tl) :
    ((Mend.parseAttr : P β Attr) p).res = .ok (a.upTo n) ∧
    ∃ al, RepP ((Mend.parseAttr : P β Attr) p).st ((f.input.adv n).flat al) :=
  Mend.attr_ok hp (Ideal.attr_enc (i := f.input) hs a n r2 r3 h hl hb)

/-- **C85** Everything the corrected parser does, for every input: the first error that applies, or the attr these bytes are. -/
theorem c85_attr_exact (hp : RepP p f) (hs : Src f.cfg o) :
    (f.s.bytes.length < 8 ∧ ((Mend.parseAttr : P β Attr) p).res = .error (.err f.s.fin)) ∨
    ∃ (t s : U32) (rest : List Byte), f.s.bytes = e32 o t ++ (e32 o s ++ rest) ∧
      ((¬ (s.toNat ∈ kattrSizes ∨ 136 < s.toNat) ∧ ((Mend.parseAttr : P β Attr) p).res =
        .error (.err (.custom .invalidRecord s!"{s.toNat} is not a valid size for a perf_event_attr struct"))) ∨
      ((s.toNat ∈ kattrSizes ∨ 136 < s.toNat) ∧ (
        (rest.length < s.toNat - 8 ∧ ((Mend.parseAttr : P β Attr) p).res = .error (.err f.s.fin)) ∨
        (s.toNat - 8 ≤ rest.length ∧ (∃ b ∈ (rest.take (s.toNat - 8)).drop 128, b ≠ 0#8) ∧
          ((Mend.parseAttr : P β Attr) p).res = .error (.err (.custom .unsupportedData
            "serialized perf_event_attr contains fields not supported by this version of perf-event-data"))) ∨
        ∃ (a : Attr) (r2 : U16) (r3 : U32), f.s.bytes.take s.toNat = kattr o a s.toNat r2 r3 ∧ s.toNat - 8 ≤ rest.length ∧
          ((Mend.parseAttr : P β Attr) p).res = .ok (a.upTo s.toNat) ∧
          ∃ al, RepP ((Mend.parseAttr : P β Attr) p).st ((f.input.adv s.toNat).flat al)))) := by
  rcases Nat.lt_or_ge f.s.bytes.length 8 with h8 | h8
  · exact .inl ⟨h8, Mend.attr_err hp (Ideal.parseAttr_short h8)⟩
  refine .inr ?_
  obtain ⟨b1, bs, hb, l1, l2⟩ := cutBytes 4 (bs := f.s.bytes) (m := f.s.bytes.length - 4) (by omega)
  obtain ⟨b2, rest, rfl, l3, l4⟩ := cutBytes 4 (bs := bs) (m := f.s.bytes.length - 8) (by omega)
  obtain ⟨t, rfl⟩ := e32_surj o l1
  obtain ⟨s, rfl⟩ := e32_surj o l3
  refine ⟨t, s, rest, hb, ?_⟩
  have hhead := Ideal.parseAttr_head (i := f.input) hs t s hb
  have hdrop : (f.input.adv 8).bytes = rest := by rw [Input.adv_bytes, show f.input.bytes = _ from hb, drop_head]
  by_cases hsz : s.toNat ∈ kattrSizes ∨ 136 < s.toNat
  · refine .inr ⟨hsz, ?_⟩
    have h8' := kattrSizes_ge hsz
    have hok := (Attr.sizeOk_iff _).2 hsz
    have hs32 : BitVec.ofNat 32 s.toNat = s := by simp
    rcases Nat.lt_or_ge rest.length (s.toNat - 8) with hlt | hge
    · refine .inl ⟨hlt, Mend.attr_err hp ?_⟩
      rw [hhead, Ideal.attrRest_short hok (by rw [hdrop]; exact hlt)]
      rfl
    refine .inr ?_
    have htl : (rest.take (s.toNat - 8)).length = s.toNat - 8 := by rw [List.length_take]; omega
    obtain ⟨a, r2, r3, ht, hrest⟩ := kattr_surj o t hsz s.isLt htl
    by_cases hz : ∃ b ∈ (rest.take (s.toNat - 8)).drop 128, b ≠ 0#8
    · refine .inl ⟨hge, hz, Mend.attr_err hp ?_⟩
      have h136 : 136 < s.toNat := by
        obtain ⟨b, hb1, _⟩ := hz
        have := List.length_pos_of_mem hb1
        rw [List.length_drop, htl] at this
        omega
      have := Ideal.attrBody_unknown (cfg := f.cfg) hs a s.toNat r2 r3 h136 s.isLt (i := Ideal.region (f.input.adv 8) (s.toNat - 8))
        rfl rfl (by show (f.input.adv 8).bytes.take _ = _; rw [hdrop]; exact hrest) hz
      rw [hs32, ht] at this
      rw [hhead, Ideal.attrRest_err hok (by rw [hdrop]; exact hge) this]
    · have htake : f.s.bytes.take s.toNat = kattr o a s.toNat r2 r3 := by
        have hz' : (rest.take (s.toNat - 8)).drop 128 = List.replicate (s.toNat - 136) 0#8 := by
          refine List.eq_replicate_iff.2 ⟨by rw [List.length_drop, htl]; omega, fun b hb => ?_⟩
          exact Classical.not_not.1 fun hne => hz ⟨b, hb, hne⟩
        rw [kattr_eq _ _ _ _ _ hsz, hb, hs32, ht, List.append_assoc, List.append_assoc, ← hz', ← hrest]
        rw [← List.append_assoc, ← List.append_assoc, List.take_append]
        rw [List.take_of_length_le (by simp; omega)]
        simp
      exact .inr ⟨a, r2, r3, htake, hge, c85_attr hp hs a s.toNat r2 r3 hsz s.isLt (tl := f.s.bytes.drop s.toNat)
        (by rw [← htake, List.take_append_drop])⟩
  · refine .inl ⟨hsz, Mend.attr_err hp ?_⟩
    rw [hhead, Ideal.attrRest_size (by rw [← Bool.not_eq_true, Attr.sizeOk_iff]; exact hsz)]

/-- **C85** The outcome is a function of the bytes: the same for every two buffers with the same contents. -/
theorem c85_attr_chunking (hp : RepP p f) (hq : RepP q g) (h : SameBytes f g) :
    ((Mend.parseAttr : P β Attr) p).res = ((Mend.parseAttr : P γ Attr) q).res := by
  have hb : f.input.bytes = g.input.bytes := h.bytes
  rcases Nat.lt_or_ge f.s.bytes.length 8 with h8 | h8
  · rw [Mend.attr_err hp (Ideal.parseAttr_short h8), Mend.attr_err hq (Ideal.parseAttr_short (by rw [← hb]; exact h8))]
    show Except.error (Fault.err f.s.fin) = Except.error (Fault.err g.s.fin)
    rw [h.fin]
  · have e1 := Ideal.parseAttr_eq (i := f.input) h8
    have e2 := Ideal.parseAttr_eq (i := g.input) (by rw [← hb]; exact h8)
    rw [← hb, ← show f.input.cfg = g.input.cfg from h.cfg] at e2
    generalize f.input.cfg.endian.conv32 (f.input.bytes.take 4) = t at e1 e2
    generalize f.input.cfg.endian.conv32 ((f.input.bytes.drop 4).take 4) = s at e1 e2
    have hr : Ideal.region (g.input.adv 8) (s.toNat - 8) = Ideal.region (f.input.adv 8) (s.toNat - 8) := by
      show (⟨(g.input.bytes.drop 8).take _, .eof, 0, g.input.cfg⟩ : Input) = _
      rw [← hb, ← show f.input.cfg = g.input.cfg from h.cfg]
      rfl
    have hf : g.input.fin = f.input.fin := h.fin.symm
    have hl : (g.input.adv 8).bytes.length = (f.input.adv 8).bytes.length := by simp only [Input.adv_bytes, hb]
    unfold Ideal.attrRest at e1 e2
    rw [hr, hl] at e2
    by_cases c1 : (!Attr.sizeOk s.toNat) = true
    · rw [if_pos c1] at e1 e2
      rw [Mend.attr_err hp e1, Mend.attr_err hq e2]
    rw [if_neg c1] at e1 e2
    by_cases c2 : s.toNat - 8 ≤ (f.input.adv 8).bytes.length
    · rw [if_pos c2] at e1 e2
      rcases hbody : (Perf.attrBody t s : Ideal Attr) (Ideal.region (f.input.adv 8) (s.toNat - 8)) with e | ⟨a, j⟩
      · rw [hbody] at e1 e2
        rw [Mend.attr_err hp e1, Mend.attr_err hq e2]
      · rw [hbody] at e1 e2
        rw [(Mend.attr_ok hp e1).1, (Mend.attr_ok hq e2).1]
    · rw [if_neg c2] at e1 e2
      rw [Mend.attr_err hp e1, Mend.attr_err hq e2]
      show Except.error (Fault.err f.s.fin) = Except.error (Fault.err g.s.fin)
      rw [h.fin]

/-! ## The configuration -/

/-- The byte order of the data is the host's if and only if `is_native` says so. True of every byte order of the crate (`c85_endians`). -/
def Honest (e : Endian) (host o : Order) : Prop := e.isNative = decide (o = host)

/-- **C85** The byte orders of the crate. -/
theorem c85_endians (host o : Order) : Honest (.native host) host host ∧ Honest (.little host) host .little ∧
    Honest (.big host) host .big ∧ Honest (.dynamic o host) host o := by
  unfold Honest
  cases host <;> cases o <;> decide +kernel

/-- **C85** The configuration made from an attr describes the layout of the records, also if they are from a machine of the other byte
order: `sample_type` bits up to 39 (the kernel defines 25), the five `read_format` bits the crate knows. -/
theorem c85_config (e : Endian) (host : Order) (a : Attr) (he : Honest e host o) (hst : a.sampleType.toNat < 2 ^ 40)
    (hrf : a.readFormat.toNat < 2 ^ 5) : Describes o a (.mendedOfAttr e host a) := by
  have key : ∀ h', Describes h' a (.ofAttr e h' a) := fun h' => c69_config e h' a hst hrf rfl
  obtain ⟨h1, h2, h3, h4, h5, h6⟩ := key o
  have : a.mendedSampleIdAll e host = a.sampleIdAll o := by
    unfold Attr.mendedSampleIdAll
    unfold Honest at he
    rw [he]
    cases host <;> cases o <;> rfl
  have hc : (ParseConfig.mendedOfAttr e host a).config = (ParseConfig.ofAttr e o a).config := by
    unfold ParseConfig.mendedOfAttr ParseConfig.ofAttr
    rw [this]
  exact ⟨by unfold ParseConfig.sampleType at h1 ⊢; rw [hc]; exact h1, by unfold ParseConfig.readFormat at h2 ⊢; rw [hc]; exact h2,
    by unfold ParseConfig.regsUser at h3 ⊢; rw [hc]; exact h3, by unfold ParseConfig.regsIntr at h4 ⊢; rw [hc]; exact h4,
    by unfold ParseConfig.sampleIdAll at h5 ⊢; rw [hc]; exact h5, by unfold ParseConfig.branchHwIndex at h6 ⊢; rw [hc]; exact h6⟩

namespace Describes
variable {a : Attr} {cfg : ParseConfig} (h : Describes o a cfg)
include h

theorem written (hrf : a.readFormat.toNat < 2 ^ 5) (misc : U16) (b : KBody) (hb : b.WrittenFor a misc) : b.Written cfg misc := by
  cases b <;> first
    | exact hb
    | (simp only [KBody.Written, KBody.WrittenFor, h.sampleType, h.readFormat, h.regsUser, h.regsIntr] at hb ⊢
       first | exact hb | exact ⟨hb, Nat.testBit_lt_two_pow hrf⟩)

theorem trailed (r : KRecord) : r.trailed cfg = r.trailedFor o a := by
  unfold KRecord.trailed KRecord.trailedFor
  rw [h.sampleIdAll]

theorem trailerAll (r : KRecord) : r.encTrailerAll o cfg = r.encTrailerAllFor o a := by
  unfold KRecord.encTrailerAll KRecord.encTrailerAllFor
  rw [h.trailed, h.sampleType]

theorem sizeAll (r : KRecord) : r.sizeAll o cfg = r.sizeAllFor o a := by
  unfold KRecord.sizeAll KRecord.sizeAllFor
  rw [h.enc, h.trailerAll]

theorem recordAll (r : KRecord) : r.encAll o cfg = r.encAllFor o a := by
  unfold KRecord.encAll KRecord.encAllFor
  rw [h.sizeAll, h.enc, h.trailerAll]

theorem metadataAll (r : KRecord) : r.metadataAll cfg = r.metadataAllFor o a := by
  unfold KRecord.metadataAll KRecord.metadataAllFor
  rw [h.trailed, h.sampleType]
  rfl

end Describes

/-- The results are what the visitor makes of these records and their metadata, in order. -/
def DeliversFor (v : Visitor Cow O) (o : Order) (a : Attr) : List (Except Fault O) → List KRecord → Prop
  | [], [] => True
  | x :: xs, r :: rs =>
    (∃ c : Record Cow, c.view = r.body.valueFor a r.misc ∧ x = v.apply c (r.metadataAllFor o a)) ∧ DeliversFor v o a xs rs
  | _, _ => False

theorem DeliversAll.for {v : Visitor Cow O} {a : Attr} {cfg : ParseConfig} (hd : Describes o a cfg) {xs : List (Except Fault O)}
    {rs : List KRecord} (h : DeliversAll v cfg xs rs) : DeliversFor v o a xs rs := by
  induction rs generalizing xs with
  | nil => cases xs with
    | nil => trivial
    | cons => exact h
  | cons r rs ih => cases xs with
    | nil => exact h
    | cons x xs =>
      obtain ⟨⟨c, h1, h2⟩, h3⟩ := h
      exact ⟨⟨c, by rw [h1, hd.value], by rw [h2, hd.metadataAll]⟩, ih h3⟩

/-- **C85** C69 for every record: with a configuration that describes the attr, all records the kernel writes are delivered. -/
theorem c85_records (hp : RepP p f) (hs : Src f.cfg o) (a : Attr) (hd : Describes o a f.cfg) (hrf : a.readFormat.toNat < 2 ^ 5)
    (rs : List KRecord) (hok : ∀ r ∈ rs, r.body.WrittenFor a r.misc ∧ r.sizeAllFor o a < 65536)
    (hb : f.s.bytes = rs.flatMap (KRecord.encAllFor o a) ++ tl) (v : Visitor Cow O) :
    DeliversFor v o a (Mend.visitMany v rs.length p).1 rs ∧
    ∃ al, RepP (Mend.visitMany v rs.length p).2 ((f.input.adv (rs.flatMap (KRecord.encAllFor o a)).length).flat al) := by
  have he : KRecord.encAll o f.cfg = KRecord.encAllFor o a := funext hd.recordAll
  have h := c84_stream hp hs rs (fun r hr => ⟨hd.written hrf _ _ (hok r hr).1, by rw [hd.sizeAll]; exact (hok r hr).2⟩)
    (by rw [he]; exact hb) v
  rw [he] at h
  exact ⟨h.1.for hd, h.2⟩

/-- **C85** From the bytes of the attr to the records, without exception: the attr is written in the size `n` of one of its versions, or
a larger one, by a machine of byte order `o`; it is read on a machine of byte order `host`; then any records of the event, from any buffer,
at any address. -/
theorem c85_recording (hp : RepP p f) (hs : Src f.cfg o) (a : Attr) (n : Nat) (r2 : U16) (r3 : U32) (h : n ∈ kattrSizes ∨ 136 < n)
    (hl : n < 2 ^ 32) (hb : f.s.bytes = kattr o a n r2 r3 ++ tl) (hst : a.sampleType.toNat < 2 ^ 40)
    (hrf : a.readFormat.toNat < 2 ^ 5) (e : Endian) (host : Order) (he : Honest e host o) :
    ∃ x : Attr, ((Mend.parseAttr : P β Attr) p).res = .ok x ∧
      ∀ {γ : Type} [ParseBuf γ] [Lawful γ] {q : Parser γ} {g : Flat} (_ : RepP q g) (_ : g.cfg = .mendedOfAttr e host x)
        (_ : Src g.cfg o) (rs : List KRecord) {tl' : List Byte}
        (_ : ∀ r ∈ rs, r.body.WrittenFor (a.upTo n) r.misc ∧ r.sizeAllFor o (a.upTo n) < 65536)
        (_ : g.s.bytes = rs.flatMap (KRecord.encAllFor o (a.upTo n)) ++ tl') (v : Visitor Cow O),
        DeliversFor v o (a.upTo n) (Mend.visitMany v rs.length q).1 rs ∧
        ∃ al, RepP (Mend.visitMany v rs.length q).2
          ((g.input.adv (rs.flatMap (KRecord.encAllFor o (a.upTo n))).length).flat al) := by
  refine ⟨a.upTo n, (c85_attr hp hs a n r2 r3 h hl hb).1, ?_⟩
  intro γ _ _ q g hq hg hs' rs tl' hok hb' v
  exact c85_records hq hs' (a.upTo n) (by rw [hg]; exact c85_config e host (a.upTo n) he hst hrf) hrf rs hok hb' v

/-! ## Reading by hand -/

omit [ParseBuf β] [Lawful β] in
theorem P.res_of_ok {A B : Type} {m : P β A} {k : A → P β B} {p : Parser β} {a : A} (h : (m p).res = .ok a) :
    ((m >>= k) p).res = (k a (m p).st).res := by
  rw [P.bind_ok (P.run_eq _ h)]

omit [ParseBuf β] [Lawful β] in
theorem P.res_of_err {A B : Type} {m : P β A} {k : A → P β B} {p : Parser β} {x : Fault} (h : (m p).res = .error x) :
    ((m >>= k) p).res = .error x := by
  rw [P.bind_err (P.run_eq _ h)]

omit [Lawful β] in
theorem Mend.metadata_ok {h : Header} {c : Parser Cursor} {md : Metadata} (h1 : ((parseHeader : Mend β Header) p).res = .ok h)
    (h2 : ((Mend.metadataWithHeader h : P β _) ((parseHeader : Mend β Header) p).st).res = .ok (c, md)) :
    ((Mend.metadata : P β _) p).res = .ok ({ c with config := c.config.withMisc md.misc }, md) := by
  unfold Mend.metadata
  rw [P.res_of_ok (m := ((parseHeader : Mend β Header) : P β Header)) h1, P.res_of_ok h2]
  rfl

omit [Lawful β] in
theorem Mend.metadata_err {h : Header} {x : Fault} (h1 : ((parseHeader : Mend β Header) p).res = .ok h)
    (h2 : ((Mend.metadataWithHeader h : P β _) ((parseHeader : Mend β Header) p).st).res = .error x) :
    ((Mend.metadata : P β _) p).res = .error x := by
  unfold Mend.metadata
  rw [P.res_of_ok (m := ((parseHeader : Mend β Header) : P β Header)) h1, P.res_of_err h2]

/-- **C85** C72 without conditions on the configuration: `parse_metadata` and then the body is the same as `parse_record`, for every type
of record. -/
theorem c85_by_hand (hp : RepP p f) (v : Visitor Cow O) :
    (∃ e, ((Mend.byHand : P β _) p).res = .error (.err e) ∧ (Mend.record v p).res = .error (.err e)) ∨
    ∃ (a b : Record Cow) (md : Metadata), ((Mend.byHand : P β _) p).res = .ok (a, md) ∧ (Mend.record v p).res = v.apply b md ∧
      a.view = b.view := by
  have hrec := (Mend.record_run hp v).1
  have hhead := Mends.header (β := β) p f.input f.s.al hp
  unfold Ideal.record at hrec
  rcases hh : (parseHeader : Ideal Header) f.input with e | ⟨h, i⟩
  · rw [hh] at hhead hrec
    refine .inl ⟨e, ?_, hrec⟩
    unfold Mend.byHand
    refine P.res_of_err ?_
    unfold Mend.metadata
    exact P.res_of_err (m := ((parseHeader : Mend β Header) : P β Header)) hhead
  · rw [hh] at hhead hrec
    obtain ⟨a, al, h1, h2, h3⟩ := hhead
    subst h2
    have hm := (Mend.metadata_run h3 a).1
    rcases hf : Ideal.frame a i with e | ⟨r, md⟩
    · rw [show Ideal.frame a (i.flat al).input = _ from hf] at hm
      simp only [Ideal.recordWithHeader, hf] at hrec
      refine .inl ⟨e, ?_, hrec⟩
      unfold Mend.byHand
      exact P.res_of_err (Mend.metadata_err h1 hm)
    · rw [show Ideal.frame a (i.flat al).input = _ from hf] at hm
      obtain ⟨c, g, hc, hreg, hg, _⟩ := hm
      subst hg
      have hc' := Mend.metadata_ok h1 hc
      have hrep : RepP { c with config := c.config.withMisc md.misc }
          (Input.flat ⟨g.input.bytes, g.input.fin, g.input.off, g.input.cfg.withMisc md.misc⟩ g.s.al) :=
        ⟨hreg.rep.rep, hreg.rep.off, by show c.config.withMisc _ = _; rw [hreg.rep.cfg]; rfl, hreg.rep.wf⟩
      have hb := Mends.body md.ty (β := Cursor) _ _ _ hrep
      simp only [Ideal.recordWithHeader, hf] at hrec
      unfold Mend.byHand
      rcases hs : (mendedBody md.ty : Ideal (Record List))
          ⟨g.input.bytes, g.input.fin, g.input.off, g.input.cfg.withMisc md.misc⟩ with e | ⟨rec, i'⟩
      · rw [hs] at hb
        rw [hs] at hrec
        refine .inl ⟨e, ?_, hrec⟩
        rw [P.res_of_ok hc']
        exact P.res_of_err (by rw [P.onChild_err (P.run_eq _ hb)])
      · rw [hs] at hb
        rw [hs] at hrec
        obtain ⟨b, k1, k2⟩ := hrec
        obtain ⟨b', _, k3, k4, _⟩ := hb
        refine .inr ⟨b', b, md, ?_, k2, (show b'.view = rec from k4).trans k1.symm⟩
        rw [P.res_of_ok hc']
        exact P.res_of_ok (congrArg Out.res (P.onChild_ok (P.run_eq _ k3) _))

/-! ## A recording -/

/-- An event as `demoEventAttr`, opened on a big endian machine; its bit fields are counted from the top. -/
def demoBigAttr : Attr := { demoEventAttr with flags := 1#64 <<< 45, config3 := 5 }

/-- A SWITCH record, an MMAP record with a trailer, and a sample. -/
def demoAllEvents : List KRecord :=
  [⟨0, .switch, demoEventTrailer⟩, ⟨0, .mmap 1 2 3 4 5 ⟨[0x61, 0x62], 6⟩, demoEventTrailer⟩, ⟨1, .sample demoEventSample, demoEventTrailer⟩]

/-- The attr from the end of a file, and the records from an odd address, on a little endian machine. -/
def demoAllRun (n : Nat) : Option (Attr × List (Except Fault (Record Cow × Metadata))) :=
  let e := Endian.dynamic .big .little
  match ((Mend.parseAttr : P Slice Attr) (Parser.new ⟨0, kattr .big demoBigAttr n 0 0⟩ { anyCfg with endian := e })).res with
  | .ok a => some (a, (Mend.visitMany pairVisitor 3
      (Parser.new (⟨4097, demoAllEvents.flatMap (KRecord.encAllFor .big (demoBigAttr.upTo n))⟩ : Slice) (.mendedOfAttr e .little a))).1)
  | .error _ => none

/-- **C85** Everything is read; `config3` is there in the attr of 136 bytes and in larger ones, and zero in shorter ones. -/
theorem c85_example :
    ∀ n ∈ [64, 136, 144], (match demoAllRun n with
    | some (a, [.ok (.switch, m1), .ok (.mmap m, m2), .ok (.sample s, m3)]) =>
      a.config3 == (if n ≥ 136 then 5 else 0) && m1.sampleId.pid == some 10 && m.filename.data == [0x61, 0x62] &&
      m2.sampleId.cpu == some 15 && s.time == some 3 && m3.sampleId.pid == none
    | _ => false) = true := by decide +kernel

/-- Its records satisfy the conditions of `c85_recording`. -/
example : ∀ r ∈ demoAllEvents, r.body.WrittenFor demoBigAttr r.misc ∧ r.sizeAllFor .big demoBigAttr < 65536 := by
  intro r hr
  simp only [demoAllEvents, List.mem_cons, List.not_mem_nil, or_false] at hr
  rcases hr with rfl | rfl | rfl
  · exact ⟨trivial, by decide +kernel⟩
  · exact ⟨by show _ ≠ _; decide, by decide +kernel⟩
  · refine ⟨⟨?_, ?_, ?_, ?_, ?_⟩, by decide +kernel⟩ <;> intro h <;> first | exact absurd h (by decide) | decide

/-- The error outcomes of `c85_attr_exact`: too short, a size that is none, an incomplete structure, an unknown field. -/
example :
    (∀ d ∈ [[1, 0, 0, 0, 64], [1, 0, 0, 0, 65, 0, 0, 0], [1, 0, 0, 0, 64, 0, 0, 0] ++ List.replicate 55 0,
        [1, 0, 0, 0, 137, 0, 0, 0] ++ List.replicate 128 0 ++ [3]],
      (match ((Mend.parseAttr : P Slice Attr) (Parser.new ⟨0, d⟩ anyCfg)).res with
      | .error (.err e) => e.kind == (if d.length = 8 then .invalidRecord else if d.length = 137 then .unsupportedData else .eof)
      | _ => false) = true) := by decide +kernel

/-- **C85** MMAP2 with a build id, read by hand: the `misc` bit of the record is known (for the crate see `c72_mmap2_false`). -/
theorem c85_by_hand_example :
    (match ((Mend.byHand : P Slice _) (Parser.new ⟨0, (KRecord.mk 0x4000 (.mmap2 1 2 3 4 5 (.buildId 3 0 0 (1 :: 2 :: 3 :: List.replicate 17 0)) 7 8 ⟨[0x61], 7⟩)
        demoEventTrailer).encAll .little demoCfg⟩ demoCfg)).res with
      | .ok (.mmap2 m, md) => m.filename.data == [0x61] && md.misc == 0x4000 &&
        (match m.detail with | .buildId id n => id.take n.toNat == [1, 2, 3] | _ => false)
      | _ => false) = true := by decide +kernel

end Perf
