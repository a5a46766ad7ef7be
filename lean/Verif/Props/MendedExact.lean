import Verif.Proof.IExact
import Verif.Props.MendedRest
/-!
# C94: with the defects corrected, exactly the records of the kernel are accepted

C62 and C77 without exceptions, and more: not only is everything that is accepted a record the kernel could have written, with this
meaning; every such record is accepted, so acceptance and meaning are described completely by the layout (`KRecord.Leads`). As in
Props/Mended.lean, the functions are those of Model/Mended.lean, not those of /repo.
-/
namespace Perf
variable {β γ : Type} [ParseBuf β] [Lawful β] [ParseBuf γ] [Lawful γ] {O : Type} {p : Parser β} {q : Parser γ} {f g : Flat}
  {o o' : Order} {cfg : ParseConfig}

/-! ## One record -/

theorem pairVisitor_record {cfg : ParseConfig} {r : KRecord} {a : Record Cow} (ha : a.view = r.body.value cfg r.misc) :
    ∃ b : Record Cow, (pairVisitor : Visitor Cow _).apply a (r.metadataAll cfg) = .ok (b, r.metadataAll cfg) ∧ b.view = r.body.value cfg r.misc := by
  obtain ⟨b, h1, h2⟩ := pairVisitor_apply a (r.metadataAll cfg)
  refine ⟨b, h1, ?_⟩
  rw [h2, ha]
  cases hb : r.body with
  | other ty d => simp only [KBody.value, KRecord.metadataAll, hb, KBody.type]
  | _ => rfl

/-- **C94** For every input and every visitor: either the input starts with a record the kernel could have written, in which case the
visitor is given the contents of that record and its metadata and the parser then stands behind it; or it does not, and there is
an error, which does not depend on the visitor. -/
theorem c94_visit (hp : RepP p f) (hs : Src f.cfg o) :
    (∃ (r : KRecord) (extra : List Byte), r.Leads o f.cfg extra f.s.bytes ∧ ∀ {O : Type} (v : Visitor Cow O),
      (∃ a : Record Cow, a.view = r.body.value f.cfg r.misc ∧ (Mend.record v p).res = v.apply a (r.metadataAll f.cfg)) ∧
      ∃ al, RepP (Mend.record v p).st ((f.input.adv (r.sizeAll o f.cfg + extra.length)).flat al)) ∨
    ((∀ (r : KRecord) (extra : List Byte), ¬ r.Leads o f.cfg extra f.s.bytes) ∧
      ∃ e, ∀ {O : Type} (v : Visitor Cow O), (Mend.record v p).res = .error (.err e)) := by
  rcases hr : Ideal.record f.input with e | ⟨x, md⟩
  · refine .inr ⟨fun r extra h => ?_, e, fun v => ?_⟩
    · rw [Ideal.record_leads hs h] at hr
      cases hr
    · have := (Mend.record_run hp v).1
      rw [hr] at this
      exact this
  · obtain ⟨r, extra, h, rfl, rfl⟩ := Ideal.record_sound hs hr
    refine .inl ⟨r, extra, h, fun v => ?_⟩
    obtain ⟨h1, h2⟩ := Mend.record_run hp v
    rw [hr] at h1
    refine ⟨h1, ?_⟩
    obtain ⟨_, hsize, _, tl, hb⟩ := h
    have hh := headerAt_extra hs r hb.symm
    have hsz : (headerAt f).size.toNat = r.sizeAll o f.cfg + extra.length := by rw [hh]; exact toNat_ofNat_lt hsize
    have hlen : f.s.bytes.length = r.sizeAll o f.cfg + extra.length + tl.length := by
      rw [← hb, List.length_append, KRecord.encExtra_length]
    have h8 : 8 ≤ r.sizeAll o f.cfg := by unfold KRecord.sizeAll; omega
    rw [hsz] at h2
    exact h2 (by omega) (by omega) (by omega)

/-- **C94** What `parse_record` returns, exactly: `(x, md)` if and only if the input starts with a record of the kernel whose contents are
`x` and whose metadata is `md`. -/
theorem c94_exact (hp : RepP p f) (hs : Src f.cfg o) (x : Record List) (md : Metadata) :
    (∃ a : Record Cow, (Mend.record pairVisitor p).res = .ok (a, md) ∧ a.view = x) ↔
    ∃ (r : KRecord) (extra : List Byte), r.Leads o f.cfg extra f.s.bytes ∧ x = r.body.value f.cfg r.misc ∧ md = r.metadataAll f.cfg := by
  constructor
  · rintro ⟨a, ha, rfl⟩
    rcases c94_visit hp hs with ⟨r, extra, h, hv⟩ | ⟨_, e, he⟩
    · obtain ⟨⟨b, h1, h2⟩, _⟩ := hv pairVisitor
      obtain ⟨c, h3, h4⟩ := pairVisitor_record h1
      rw [ha, h3] at h2
      cases h2
      exact ⟨r, extra, h, h4, rfl⟩
    · rw [he] at ha
      cases ha
  · rintro ⟨r, extra, h, rfl, rfl⟩
    have h1 := (Mend.record_run hp pairVisitor).1
    rw [Ideal.record_leads hs h] at h1
    obtain ⟨a, h2, h3⟩ := h1
    obtain ⟨b, h4, h5⟩ := pairVisitor_record h2
    exact ⟨b, h3.trans h4, h5⟩

/-- **C94** A record is returned if and only if the input starts with one. -/
theorem c94_accepts (hp : RepP p f) (hs : Src f.cfg o) :
    (∃ y, (Mend.record pairVisitor p).res = .ok y) ↔ ∃ (r : KRecord) (extra : List Byte), r.Leads o f.cfg extra f.s.bytes := by
  constructor
  · rintro ⟨⟨a, md⟩, h⟩
    obtain ⟨r, extra, h, _⟩ := (c94_exact hp hs a.view md).1 ⟨a, h, rfl⟩
    exact ⟨r, extra, h⟩
  · rintro ⟨r, extra, h⟩
    obtain ⟨a, h, _⟩ := (c94_exact hp hs _ _).2 ⟨r, extra, h, rfl, rfl⟩
    exact ⟨_, h⟩

/-- **C94** The layout is unambiguous: however the start of some bytes is taken for a record of the kernel, it is equally long and
means the same. -/
theorem c94_unambiguous (hs : Src cfg o) {bs extra extra' : List Byte} {r r' : KRecord} (h : r.Leads o cfg extra bs)
    (h' : r'.Leads o cfg extra' bs) : r.body.value cfg r.misc = r'.body.value cfg r'.misc ∧ r.metadataAll cfg = r'.metadataAll cfg ∧
      (r.encExtra o cfg extra) = r'.encExtra o cfg extra' := by
  have e1 := Ideal.record_leads (f := ⟨⟨bs, .at 0, .eof⟩, 0, cfg⟩) hs h
  have e2 := Ideal.record_leads (f := ⟨⟨bs, .at 0, .eof⟩, 0, cfg⟩) hs h'
  rw [e1] at e2
  have e3 := Except.ok.inj e2
  refine ⟨congrArg Prod.fst e3, congrArg Prod.snd e3, ?_⟩
  obtain ⟨tl, ht⟩ := h.bytes
  obtain ⟨tl', ht'⟩ := h'.bytes
  have a1 := headerAt_extra (f := ⟨⟨bs, .at 0, .eof⟩, 0, cfg⟩) hs r ht.symm
  have a2 := headerAt_extra (f := ⟨⟨bs, .at 0, .eof⟩, 0, cfg⟩) hs r' ht'.symm
  rw [a1] at a2
  have a3 := congrArg (fun h => h.size.toNat) a2
  simp only at a3
  rw [toNat_ofNat_lt h.small, toNat_ofNat_lt h'.small, ← KRecord.encExtra_length, ← KRecord.encExtra_length] at a3
  exact (List.append_inj (ht.trans ht'.symm) a3).1

/-! ## Two records -/

theorem KBody.Written.padded {misc : U16} {b : KBody} (h : b.Written cfg misc) : b.Padded cfg.sampleType := by
  cases b with
  | sample s =>
    have h : s.Written cfg.sampleType cfg.readFormat cfg.regsUser cfg.regsIntr := h
    exact h.rawPad
  | textPoke => exact h
  | _ => trivial

theorem KBody.written_congr {cfg cfg' : ParseConfig} (hc : cfg.config = cfg'.config) {b : KBody} {misc : U16} (h : b.Written cfg' misc) :
    b.Written cfg misc := by
  have hrf : cfg'.readFormat = cfg.readFormat := by unfold ParseConfig.readFormat; rw [hc]
  have hst : cfg'.sampleType = cfg.sampleType := by unfold ParseConfig.sampleType; rw [hc]
  have hru : cfg'.regsUser = cfg.regsUser := by unfold ParseConfig.regsUser; rw [hc]
  have hri : cfg'.regsIntr = cfg.regsIntr := by unfold ParseConfig.regsIntr; rw [hc]
  cases b <;> simp only [KBody.Written, hrf, hst, hru, hri] at h ⊢ <;> exact h

theorem KRecord.blank_trailed (cfg cfg' : ParseConfig) (r : KRecord) : (r.blank cfg).trailed cfg' = r.trailed cfg' := by
  simp only [KRecord.trailed, KRecord.blank, KBody.blank_type]

/-- Records with the same value and metadata have the same content. -/
theorem KRecord.encAll_value {cfg cfg' : ParseConfig} (hc : cfg.config = cfg'.config) {r r' : KRecord} (ha : r.body.Padded cfg.sampleType)
    (hb : r'.body.Padded cfg.sampleType) (h : r.body.value cfg r.misc = r'.body.value cfg' r'.misc)
    (hm : r.metadataAll cfg = r'.metadataAll cfg') (o : Order) : (r.blank cfg).encAll o cfg = (r'.blank cfg).encAll o cfg := by
  have hst : cfg'.sampleType = cfg.sampleType := by unfold ParseConfig.sampleType; rw [hc]
  have hall : cfg'.sampleIdAll = cfg.sampleIdAll := by unfold ParseConfig.sampleIdAll; rw [hc]
  simp only [KRecord.metadataAll, Metadata.mk.injEq] at hm
  obtain ⟨hty, hmisc, hid⟩ := hm
  rw [← hmisc] at h
  have htd : r'.trailed cfg' = r.trailed cfg := by simp only [KRecord.trailed, hall, hty]
  have htd' : r'.trailed cfg = r.trailed cfg := by simp only [KRecord.trailed, hty]
  have hbody := (KBody.enc_value (o := o) hc ha hb h).2
  have htr : (r.blank cfg).encTrailerAll o cfg = (r'.blank cfg).encTrailerAll o cfg := by
    simp only [KRecord.encTrailerAll, KRecord.blank_trailed, htd']
    rw [htd, hst] at hid
    split
    · rename_i hcnd
      rw [if_pos hcnd, if_pos hcnd] at hid
      exact KTrailer.enc_value hid
    · rfl
  have hsz : (r.blank cfg).sizeAll o cfg = (r'.blank cfg).sizeAll o cfg := by
    unfold KRecord.sizeAll
    rw [htr]
    show 8 + ((r.body.blank cfg.sampleType).enc o cfg).length + _ = 8 + ((r'.body.blank cfg.sampleType).enc o cfg).length + _
    rw [hbody]
  unfold KRecord.encAll
  rw [htr, hsz]
  simp only [KRecord.blank, KBody.blank_type, hty, hmisc, hbody]

/-- **C94** What `blank` replaces does not show in what is returned. -/
theorem c94_blank {bs extra : List Byte} {r : KRecord} (h : r.Leads o cfg extra bs) :
    (r.blank cfg).body.value cfg r.misc = r.body.value cfg r.misc ∧ (r.blank cfg).metadataAll cfg = r.metadataAll cfg := by
  refine ⟨KBody.blank_value fun s hb h13 => ?_, ?_⟩
  · have h1 := h.small
    unfold KRecord.sizeAll at h1
    rw [hb] at h1
    have h2 : (s.enc o cfg.sampleType cfg.readFormat cfg.branchHwIndex).length < 65536 := by
      have : (KBody.enc o cfg (.sample s)).length = (s.enc o cfg.sampleType cfg.readFormat cfg.branchHwIndex).length := rfl
      omega
    have h3 := KSample.part_length (c := cfg.sampleType.getLsbD 13) (bs := s.encStack o) h2 (by simp [KSample.parts]) h13
    simp only [KSample.encStack, List.length_append] at h3
    omega
  · simp only [KRecord.metadataAll, KRecord.blank_trailed]
    simp only [KRecord.blank, KBody.blank_type, KTrailer.blank_value]

/-- **C94** C77 without exceptions. Two inputs, in any two buffers and byte orders, with the same settings: if the same record and the same
metadata is returned for both, then both start with records of the kernel, and these have the same content. -/
theorem c94_content (hp : RepP p f) (hq : RepP q g) (hs : Src f.cfg o) (hs' : Src g.cfg o') (hc : f.cfg.config = g.cfg.config)
    {a b : Record Cow} {md : Metadata} (ha : (Mend.record pairVisitor p).res = .ok (a, md))
    (hb : (Mend.record pairVisitor q).res = .ok (b, md)) (hab : a.view = b.view) :
    (∃ (r : KRecord) (extra : List Byte), r.Leads o f.cfg extra f.s.bytes) ∧
    (∃ (r : KRecord) (extra : List Byte), r.Leads o' g.cfg extra g.s.bytes) ∧
    ∀ (r r' : KRecord) (extra extra' : List Byte), r.Leads o f.cfg extra f.s.bytes → r'.Leads o' g.cfg extra' g.s.bytes →
      ∀ o'', (r.blank f.cfg).encAll o'' f.cfg = (r'.blank f.cfg).encAll o'' f.cfg := by
  obtain ⟨r, extra, h1, h2, h3⟩ := (c94_exact hp hs _ _).1 ⟨a, ha, rfl⟩
  obtain ⟨r', extra', h1', h2', h3'⟩ := (c94_exact hq hs' _ _).1 ⟨b, hb, rfl⟩
  refine ⟨⟨r, extra, h1⟩, ⟨r', extra', h1'⟩, fun k k' x x' hk hk' o'' => ?_⟩
  obtain ⟨e1, e2, _⟩ := c94_unambiguous hs h1 hk
  obtain ⟨e1', e2', _⟩ := c94_unambiguous hs' h1' hk'
  refine KRecord.encAll_value hc hk.written.padded (KBody.written_congr hc hk'.written).padded ?_ ?_ o''
  · rw [← e1, ← h2, hab, h2', e1']
  · rw [← e2, ← h3, h3', e2']

theorem KBody.Written.blank {misc : U16} {b : KBody} (h : b.Written cfg misc) : (b.blank cfg.sampleType).Written cfg misc := by
  cases b with
  | sample s =>
    have h : s.Written cfg.sampleType cfg.readFormat cfg.regsUser cfg.regsIntr := h
    refine ⟨fun h10 => ?_, fun _ _ => ?_, h.regsUser, h.regsIntr, h.readFormat⟩
    · have := h.rawPad h10
      simp only [KSample.blank, List.length_replicate]
      exact this
    · simp only [KSample.blank, BitVec.toNat_ofNat]
      exact Nat.mod_le _ _
  | mmap2 pid tid addr len pgoff detail prot flags name =>
    cases detail <;> exact h
  | textPoke addr old new pad =>
    simp only [KBody.blank, KBody.Written, List.length_replicate] at h ⊢
    exact h
  | _ => exact h

/-- **C94** Conversely, two records of the same content mean the same, so that `blank` takes away no less and no more than what the
crate does not report. (A name without a NUL counts as if it had one.) -/
theorem c94_same_content (hs : Src cfg o) {bs bs' extra extra' : List Byte} {r r' : KRecord} (h : r.Leads o cfg extra bs)
    (h' : r'.Leads o cfg extra' bs') (hl : (r.blank cfg).sizeAll o cfg < 65536)
    (he : (r.blank cfg).encAll o cfg = (r'.blank cfg).encAll o cfg) :
    r.body.value cfg r.misc = r'.body.value cfg r'.misc ∧ r.metadataAll cfg = r'.metadataAll cfg := by
  have e0 : ∀ k : KRecord, k.encExtra o cfg [] = k.encAll o cfg := fun k => by
    unfold KRecord.encExtra KRecord.encAll
    rw [List.append_nil, List.length_nil, Nat.add_zero]
  have hl' : (r'.blank cfg).sizeAll o cfg < 65536 := by
    have h1 := KRecord.encExtra_length (extra := []) (o := o) cfg (r.blank cfg)
    have h2 := KRecord.encExtra_length (extra := []) (o := o) cfg (r'.blank cfg)
    rw [e0, List.length_nil] at h1 h2
    rw [he] at h1
    omega
  have l1 : (r.blank cfg).Leads o cfg [] ((r.blank cfg).encAll o cfg) := ⟨h.written.blank, hl, fun _ => rfl, by rw [e0]; exact List.prefix_refl _⟩
  have l2 : (r'.blank cfg).Leads o cfg [] ((r.blank cfg).encAll o cfg) :=
    ⟨h'.written.blank, hl', fun _ => rfl, by rw [e0, he]; exact List.prefix_refl _⟩
  obtain ⟨h1, h2, _⟩ := c94_unambiguous hs l1 l2
  obtain ⟨b1, b2⟩ := c94_blank h
  obtain ⟨b1', b2'⟩ := c94_blank h'
  exact ⟨b1.symm.trans (h1.trans b1'), b2.symm.trans (h2.trans b2')⟩

/-! ## A recording -/

/-- Too little for a record: not even a header, or less than the size in it. -/
def CutShort (o : Order) (bs : List Byte) : Prop := bs.length < 8 ∨ ∃ n : U16, (bs.drop 6).take 2 = e16 o n ∧ bs.length < n.toNat

/-- The bytes are these records, each with its extra bytes, and then at most the beginning of another one. -/
def Recording (o : Order) (cfg : ParseConfig) : List (KRecord × List Byte) → List Byte → Prop
  | [], bs => CutShort o bs
  | (r, extra) :: rs, bs => r.Leads o cfg extra bs ∧ Recording o cfg rs (bs.drop (r.encExtra o cfg extra).length)

/-- The same in one line. -/
theorem Recording.bytes : ∀ {rs : List (KRecord × List Byte)} {bs : List Byte}, Recording o cfg rs bs →
    ∃ tl, bs = (rs.flatMap fun x => x.1.encExtra o cfg x.2) ++ tl ∧ CutShort o tl
  | [], bs, h => ⟨bs, rfl, h⟩
  | (r, extra) :: rs, bs, h => by
    obtain ⟨h1, h2⟩ := h
    obtain ⟨tl, h3, h4⟩ := Recording.bytes h2
    obtain ⟨x, rfl⟩ := h1.bytes
    rw [List.drop_left] at h3
    exact ⟨tl, by rw [h3, List.flatMap_cons, List.append_assoc], h4⟩

/-- An input with nothing but these bytes. -/
abbrev flatOf (cfg : ParseConfig) (bs : List Byte) : Flat := ⟨⟨bs, .at 0, .eof⟩, 0, cfg⟩

theorem cutShort_iff (hs : Src cfg o) (bs : List Byte) : CutShort o bs ↔ ¬ WholeAt (flatOf cfg bs) := by
  unfold CutShort WholeAt
  show _ ↔ ¬ (8 ≤ bs.length ∧ sizeField cfg bs ≤ bs.length)
  by_cases h8 : bs.length < 8
  · exact ⟨fun _ h => by omega, fun _ => .inl h8⟩
  · obtain ⟨n, hn⟩ := enc_surj o 2 ((bs.drop 6).take 2) (by rw [List.length_take, List.length_drop]; omega)
    have hn : (bs.drop 6).take 2 = e16 o n := hn
    have hz : ∀ m : U16, (bs.drop 6).take 2 = e16 o m → sizeField cfg bs = m.toNat := fun m hm => by
      unfold sizeField; rw [hm, hs.conv16]
    constructor
    · rintro (h | ⟨m, hm, hl⟩) ⟨h1, h2⟩
      · omega
      · rw [hz m hm] at h2; omega
    · intro h
      refine .inr ⟨n, hn, ?_⟩
      rw [← hz n hn]
      omega

theorem recordsIn_nil {bs : List Byte} (hw : ¬ WholeAt (flatOf cfg bs)) : recordsIn cfg bs = [] := by
  unfold recordsIn
  by_cases hne : bs = []
  · rw [hne]; rfl
  · have hw : ¬ (8 ≤ bs.length ∧ sizeField cfg bs ≤ bs.length) := hw
    have hl : firstLen cfg bs = bs.length := by unfold firstLen; omega
    rw [cut_cons cfg hne, hl, List.drop_length, cut_nil, List.take_length, List.filter_cons_of_neg ?_]
    · rfl
    · unfold wholeBlock
      rw [decide_eq_true_eq]
      exact hw

theorem recordsIn_cons {bs : List Byte} (hw : WholeAt (flatOf cfg bs)) :
    recordsIn cfg bs = within True (Ideal.record (flatOf cfg bs).input) :: recordsIn cfg (bs.drop (max 8 (sizeField cfg bs))) := by
  have hw' : 8 ≤ bs.length ∧ sizeField cfg bs ≤ bs.length := hw
  have hne : bs ≠ [] := fun h => by rw [h] at hw'; exact absurd hw'.1 (by decide)
  have hl : firstLen cfg bs = max 8 (sizeField cfg bs) := by unfold firstLen; omega
  have hwb : wholeBlock cfg (bs.take (firstLen cfg bs)) = true := by
    have e : sizeField cfg (bs.take (firstLen cfg bs)) = sizeField cfg bs := by
      unfold sizeField
      rw [List.drop_take, List.take_take, Nat.min_eq_left (by omega)]
    unfold wholeBlock
    rw [e, List.length_take, decide_eq_true_eq]
    omega
  unfold recordsIn
  have hb := Ideal.record_block hw
  rw [cut_cons cfg hne, List.filter_cons_of_pos hwb, List.map_cons, hl]
  rw [show firstLen (flatOf cfg bs).cfg (flatOf cfg bs).s.bytes = max 8 (sizeField cfg bs) from hl] at hb
  rw [show (⟨bs.take (max 8 (sizeField cfg bs)), .eof, 0, cfg⟩ : Input) = ⟨(flatOf cfg bs).s.bytes.take (max 8 (sizeField cfg bs)), .eof, 0, (flatOf cfg bs).cfg⟩
    from rfl, hb]

theorem KRecord.Leads.whole (hs : Src cfg o) {r : KRecord} {extra bs : List Byte} (h : r.Leads o cfg extra bs) :
    WholeAt (flatOf cfg bs) ∧ max 8 (sizeField cfg bs) = (r.encExtra o cfg extra).length := by
  obtain ⟨_, hsize, _, tl, hb⟩ := h
  have hh := headerAt_extra (f := flatOf cfg bs) hs r hb.symm
  have hsz : (headerAt (flatOf cfg bs)).size.toNat = r.sizeAll o cfg + extra.length := by rw [hh]; exact toNat_ofNat_lt hsize
  have hsz' : sizeField cfg bs = r.sizeAll o cfg + extra.length := hsz
  have hlen : bs.length = r.sizeAll o cfg + extra.length + tl.length := by rw [← hb, List.length_append, KRecord.encExtra_length]
  have h8 : 8 ≤ r.sizeAll o cfg := by unfold KRecord.sizeAll; omega
  refine ⟨⟨?_, ?_⟩, ?_⟩
  · show 8 ≤ bs.length; omega
  · show _ ≤ bs.length; omega
  · rw [KRecord.encExtra_length]; omega

theorem Recording.recordsIn (hs : Src cfg o) : ∀ {rs : List (KRecord × List Byte)} {bs : List Byte}, Recording o cfg rs bs →
    Perf.recordsIn cfg bs = rs.map fun x => .ok (x.1.body.value cfg x.1.misc, x.1.metadataAll cfg)
  | [], bs, h => recordsIn_nil ((cutShort_iff hs bs).1 h)
  | (r, extra) :: rs, bs, h => by
    obtain ⟨h1, h2⟩ := h
    obtain ⟨h3, h4⟩ := h1.whole hs
    rw [recordsIn_cons h3, h4, Recording.recordsIn hs h2, Ideal.record_leads (f := flatOf cfg bs) hs h1]
    rfl

theorem Recording.of_recordsIn (hs : Src cfg o) : ∀ (n : Nat) (bs : List Byte), bs.length ≤ n →
    (∀ y ∈ Perf.recordsIn cfg bs, ∃ z, y = .ok z) → ∃ rs, Recording o cfg rs bs := by
  intro n
  induction n with
  | zero =>
    intro bs hn _
    exact ⟨[], .inl (by omega)⟩
  | succ n ih =>
    intro bs hn h
    by_cases hw : WholeAt (flatOf cfg bs)
    case neg => exact ⟨[], (cutShort_iff hs bs).2 hw⟩
    rw [recordsIn_cons hw] at h
    obtain ⟨z, hz⟩ := h _ (List.mem_cons_self ..)
    rcases hr : Ideal.record (flatOf cfg bs).input with e | ⟨x, md⟩
    · rw [hr] at hz; cases hz
    · obtain ⟨r, extra, h1, _, _⟩ := Ideal.record_sound (f := flatOf cfg bs) hs hr
      obtain ⟨_, h4⟩ := KRecord.Leads.whole hs h1
      rw [h4] at h
      have h8 := hw.1
      have h8 : 8 ≤ bs.length := h8
      obtain ⟨rs, h5⟩ := ih (bs.drop (r.encExtra o cfg extra).length) (by rw [List.length_drop]; omega)
        fun y hy => h y (List.mem_cons_of_mem _ hy)
      exact ⟨(r, extra) :: rs, h1, h5⟩

theorem AllOk.ok {l : List (Except Fault (Record Cow × Metadata))} {ys : List (Except ParseError (Record List × Metadata))}
    (h : AllOk pairVisitor l ys) (hl : ∀ x ∈ l, ∃ y, x = .ok y) : ∀ y ∈ ys, ∃ z, y = .ok z := by
  induction ys generalizing l with
  | nil => intro y hy; cases hy
  | cons y ys ih =>
    cases l with
    | nil => exact h.elim
    | cons x l =>
      obtain ⟨h1, h2⟩ := h
      intro z hz
      rcases List.mem_cons.1 hz with rfl | hz
      · obtain ⟨w, hw⟩ := hl x (List.mem_cons_self ..)
        rcases z with e | z
        · have h1 : x = .error (.err e) := h1
          rw [h1] at hw; cases hw
        · exact ⟨z, rfl⟩
      · exact ih h2 (fun x hx => hl x (List.mem_cons_of_mem _ hx)) z hz

theorem AllOk.delivers {v : Visitor Cow O} {l : List (Except Fault O)} {rs : List (KRecord × List Byte)}
    (h : AllOk v l (rs.map fun x => .ok (x.1.body.value cfg x.1.misc, x.1.metadataAll cfg))) : DeliversAll v cfg l (rs.map (·.1)) := by
  induction rs generalizing l with
  | nil =>
    cases l with
    | nil => trivial
    | cons => exact h.elim
  | cons r rs ih =>
    cases l with
    | nil => exact h.elim
    | cons x l => exact ⟨h.1, ih h.2⟩

theorem DeliversAll.ok {l : List (Except Fault (Record Cow × Metadata))} {rs : List KRecord} (h : DeliversAll pairVisitor cfg l rs) :
    ∀ x ∈ l, ∃ y, x = .ok y := by
  induction rs generalizing l with
  | nil =>
    cases l with
    | nil => intro x hx; cases hx
    | cons => exact h.elim
  | cons r rs ih =>
    cases l with
    | nil => exact h.elim
    | cons y l =>
      obtain ⟨⟨c, h1, h2⟩, h3⟩ := h
      intro x hx
      rcases List.mem_cons.1 hx with rfl | hx
      · obtain ⟨b, h4, _⟩ := pairVisitor_record h1
        exact ⟨_, h2.trans h4⟩
      · exact ih h3 x hx

/-- **C94** A loop that stops at `Eof` meets no error if and only if the input is a sequence of records of the kernel, with or without
bytes that belong to nothing, and at most the beginning of another one. -/
theorem c94_recording (hp : RepP p f) (hf : f.s.fin.kind = .eof) (hs : Src f.cfg o) :
    (∃ l, Sound.untilEof pairVisitor ((f.s.bytes.length + 7) / 8 + 1) p = some l ∧ ∀ x ∈ l, ∃ y, x = .ok y) ↔
    ∃ rs, Recording o f.cfg rs f.s.bytes := by
  obtain ⟨l, h1, h2⟩ := c89_loop hp hf pairVisitor c89_visitors.2
  constructor
  · rintro ⟨l', h3, h4⟩
    rw [h1] at h3
    cases h3
    exact Recording.of_recordsIn hs _ _ (Nat.le_refl _) (h2.ok h4)
  · rintro ⟨rs, h⟩
    refine ⟨l, h1, ?_⟩
    rw [h.recordsIn hs] at h2
    exact h2.delivers.ok

/-- **C94** … and then every visitor is given exactly these records, in order, with their metadata. -/
theorem c94_delivers (hp : RepP p f) (hf : f.s.fin.kind = .eof) (hs : Src f.cfg o) (v : Visitor Cow O) (hv : v.NoEof)
    {rs : List (KRecord × List Byte)} (h : Recording o f.cfg rs f.s.bytes) :
    ∃ l, Sound.untilEof v ((f.s.bytes.length + 7) / 8 + 1) p = some l ∧ DeliversAll v f.cfg l (rs.map (·.1)) := by
  obtain ⟨l, h1, h2⟩ := c89_loop hp hf v hv
  refine ⟨l, h1, ?_⟩
  rw [h.recordsIn hs] at h2
  exact h2.delivers

/-! ## Examples -/

/-- An MMAP record with a trailer, and a LOST record with three bytes between body and trailer, followed by the beginning of another. -/
def demoExtraLost : KRecord := ⟨0, .lost ⟨7, 3⟩, ⟨1, 2, 3, 4, 5, 6, 7, 8⟩⟩
def demoRecordingCfg : ParseConfig := partsCfg 0 2 true false 0 0
def demoRecordingBytes : List Byte := demoMmapAll.encExtra .little demoRecordingCfg [] ++
  (demoExtraLost.encExtra .little demoRecordingCfg [0xaa, 0xbb, 0xcc] ++ [2, 0, 0, 0, 0, 0, 24, 0, 1])

example : Recording .little demoRecordingCfg [(demoMmapAll, []), (demoExtraLost, [0xaa, 0xbb, 0xcc])] demoRecordingBytes := by
  refine ⟨⟨?_, by decide +kernel, fun _ => rfl, ⟨_, rfl⟩⟩, ⟨trivial, by decide +kernel, fun h => (by cases h), ?_⟩, .inr ⟨24, ?_, ?_⟩⟩
  · show _ ≠ _
    decide
  · unfold demoRecordingBytes
    rw [List.drop_left]
    exact ⟨_, rfl⟩
  · decide +kernel
  · decide +kernel

/-- They are read like this by the corrected crate, and not by the crate: the trailer becomes part of the file name, and is missing
from the metadata. -/
theorem c94_example :
    (match Sound.untilEof pairVisitor 15 (Parser.new (⟨3, demoRecordingBytes⟩ : Slice) demoRecordingCfg) with
    | some [.ok (.mmap m, m1), .ok (.lost l, m2)] => m.filename.data == [0x61, 0x62] && m1.sampleId.pid == some 1 && l.id == 7 &&
      m2.sampleId.pid == some 1
    | _ => false) = true ∧
    (match (P.record pairVisitor (Parser.new (⟨3, demoRecordingBytes⟩ : Slice) demoRecordingCfg)).res with
    | .ok (.mmap m, m1) => m.filename.data != [0x61, 0x62] && m1.sampleId.pid == none
    | _ => false) = true := by decide +kernel

/-- Nothing the kernel writes starts like this: a size smaller than the header, a type of which the body is too short, and a build id of more
than 20 bytes. -/
example : ∀ bs ∈ ([[2, 0, 0, 0, 0, 0, 4, 0], [2, 0, 0, 0, 0, 0, 16, 0, 1, 2, 3, 4, 5, 6, 7, 8],
    [10, 0, 0, 0, 0, 0x40, 72, 0] ++ List.replicate 32 0 ++ [21, 0, 0, 0] ++ List.replicate 28 0] : List (List Byte)),
    ∀ (r : KRecord) (extra : List Byte), ¬ r.Leads .little demoCfg extra bs := by
  intro bs hbs r extra h
  have h1 : ∀ bs ∈ ([[2, 0, 0, 0, 0, 0, 4, 0], [2, 0, 0, 0, 0, 0, 16, 0, 1, 2, 3, 4, 5, 6, 7, 8],
      [10, 0, 0, 0, 0, 0x40, 72, 0] ++ List.replicate 32 0 ++ [21, 0, 0, 0] ++ List.replicate 28 0] : List (List Byte)),
      (match (Mend.record pairVisitor (Parser.new (⟨3, bs⟩ : Slice) demoCfg)).res with
      | .ok _ => false
      | _ => true) = true := by decide +kernel
  obtain ⟨y, hy⟩ := (c94_accepts (RepP.slice 3 bs demoCfg_wf) (Src.little _ _)).2 ⟨r, extra, h⟩
  have h2 := h1 bs hbs
  rw [hy] at h2
  cases h2

end Perf
