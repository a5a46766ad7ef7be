import Verif.Spec.Session
import Verif.Props.Attr
import Verif.Props.Config
import Verif.Props.Streams
/-!
# A recording, from the attr to the last record

The attr is parsed, a configuration is made from it, and the records are parsed with that configuration.
-/
namespace Perf
variable {β : Type} [ParseBuf β] [Lawful β] {p : Parser β} {f : Flat} {o : Order} {tl : List Byte} {O : Type}

/-- `n` calls of `parse_record_with_visitor`; all of them are made, whatever they return. -/
def visitMany (v : Visitor Cow O) : Nat → Parser β → List (Except Fault O) × Parser β
  | 0, p => ([], p)
  | n + 1, p => ((P.record v p).res :: (visitMany v n (P.record v p).st).1, (visitMany v n (P.record v p).st).2)

/-- The configuration describes the same layout as the attr. -/
structure Describes (o : Order) (a : Attr) (cfg : ParseConfig) : Prop where
  sampleType : cfg.sampleType = a.sampleType
  readFormat : cfg.readFormat = a.readFormat
  regsUser : cfg.regsUser = a.sampleRegsUser
  regsIntr : cfg.regsIntr = a.sampleRegsIntr
  sampleIdAll : cfg.sampleIdAll = a.trailers o
  branchHwIndex : cfg.branchHwIndex = a.hwIndex

namespace Describes
variable {a : Attr} {cfg : ParseConfig} (h : Describes o a cfg)
include h

theorem enc (b : KBody) : b.enc o cfg = b.encFor o a := by
  cases b <;> first | rfl | simp only [KBody.enc, KBody.encFor, h.sampleType, h.readFormat, h.branchHwIndex]

theorem value (misc : U16) (b : KBody) : b.value cfg misc = b.valueFor a misc := by
  cases b <;> first | rfl | simp only [KBody.value, KBody.valueFor, h.sampleType, h.readFormat, h.regsUser, h.regsIntr, h.branchHwIndex]

theorem ok (hrf : a.readFormat.toNat < 2 ^ 5) (misc : U16) (b : KBody) (hb : b.OkFor cfg.endian.isNative o a misc) :
    b.Ok o cfg misc := by
  cases b <;> first
    | exact hb
    | (simp only [KBody.Ok, KBody.OkFor, h.sampleType, h.readFormat, h.regsUser, h.regsIntr, h.branchHwIndex] at hb ⊢
       first | exact hb | exact ⟨hb, Nat.testBit_lt_two_pow hrf⟩)

theorem trailer (r : KRecord) : r.encTrailer o cfg = r.encTrailerFor o a := by
  unfold KRecord.encTrailer KRecord.encTrailerFor KRecord.hasTrailer
  rw [h.sampleIdAll, h.sampleType]

theorem size (r : KRecord) : r.size o cfg = r.sizeFor o a := by
  unfold KRecord.size KRecord.sizeFor
  rw [h.enc, h.trailer]

theorem record (r : KRecord) : r.enc o cfg = r.encFor o a := by
  unfold KRecord.enc KRecord.encFor
  rw [h.size, h.enc, h.trailer]

theorem metadata (r : KRecord) : r.metadata cfg = r.metadataFor o a := by
  unfold KRecord.metadata KRecord.metadataFor KRecord.hasTrailer
  rw [h.sampleIdAll, h.sampleType]
  rfl

end Describes

theorem cBit_trailers (o : Order) (a : Attr) : cBit o a.flags 18 = a.trailers o := by cases o <;> rfl

/-- **C69** The configuration made from an attr describes the layout of the records: `sample_type` bits up to 39 (the kernel
defines 25), the five `read_format` bits the crate knows. -/
theorem c69_config (e : Endian) (host : Order) (a : Attr) (hst : a.sampleType.toNat < 2 ^ 40) (hrf : a.readFormat.toNat < 2 ^ 5)
    (hid : a.trailers host = a.trailers o) : Describes o a (.ofAttr e host a) := by
  obtain ⟨h1, h2, h3, h4, h5, h6, _⟩ := c27_attr e host a
  exact ⟨h1 hst, h2 hrf, h3, h4, h5.trans ((cBit_trailers host a).trans hid), h6⟩

/-- The results are what the visitor makes of these records and their metadata, in order. -/
def Delivers (v : Visitor Cow O) (o : Order) (a : Attr) : List (Except Fault O) → List KRecord → Prop
  | [], [] => True
  | x :: xs, r :: rs =>
    (∃ c : Record Cow, c.view = r.body.valueFor a r.misc ∧ x = v.apply c (r.metadataFor o a)) ∧ Delivers v o a xs rs
  | _, _ => False

/-- **C69** Full statement: for all records, i.e. without `hok` (what is excluded: C38, C48, C49, C50) and `hal` (C33; void in
foreign byte orders and for readers). -/
theorem c69_records_partial (hp : RepP p f) (hs : Src f.cfg o) (a : Attr) (hd : Describes o a f.cfg)
    (hrf : a.readFormat.toNat < 2 ^ 5) (rs : List KRecord)
    (hok : ∀ r ∈ rs, r.body.OkFor f.cfg.endian.isNative o a r.misc ∧ r.sizeFor o a < 65536)
    (hal : (∃ r ∈ rs, r.body.needsAlignment = true) → f.cfg.endian.isNative = true →
      f.s.al = .temp ∨ AlMod f.s.al 0 ∧ ∀ r ∈ rs, r.sizeFor o a % 8 = 0)
    (hb : f.s.bytes = encSession o a rs ++ tl) (v : Visitor Cow O) :
    Delivers v o a (visitMany v rs.length p).1 rs ∧ RepP (visitMany v rs.length p).2 (f.adv (encSession o a rs).length) := by
  induction rs generalizing p f with
  | nil => exact ⟨trivial, by rw [show (encSession o a []).length = 0 from rfl, Flat.adv_zero]; exact hp⟩
  | cons r rs ih =>
    have hb' : f.s.bytes = r.enc o f.cfg ++ (encSession o a rs ++ tl) := by
      rw [hb, hd.record]; simp [encSession]
    obtain ⟨⟨c, h1, h2⟩, h3, _⟩ := P.record_enc hp hs r (hd.ok hrf _ _ (hok r (by simp)).1)
      (by rw [hd.size]; exact (hok r (by simp)).2) (fun h1 h2 => by
        rcases hal ⟨r, by simp, h1⟩ h2 with h | h
        · rw [h]; trivial
        · exact h.1) hb' v
    rw [hd.value] at h1
    rw [hd.metadata] at h2
    rw [hd.record] at h3
    have h4 := ih (p := (P.record v p).st) (f := f.adv (r.encFor o a).length) h3 hs hd
      (fun r' hr' => hok r' (by simp [hr'])) (fun ⟨r', hr', hn⟩ h2 => by
        rcases hal ⟨r', by simp [hr'], hn⟩ h2 with h | h
        · left
          show f.s.al.add _ = _
          rw [h]; rfl
        · right
          refine ⟨?_, fun r'' hr'' => h.2 r'' (by simp [hr''])⟩
          have h5 : (r.encFor o a).length % 8 = 0 := by
            rw [← hd.record, r.enc_length, hd.size]; exact h.2 r (by simp)
          have h6 := h.1.add (r.encFor o a).length
          show AlMod (f.s.al.add _) 0
          revert h6
          rw [Nat.zero_add]
          unfold AlMod
          cases f.s.al.add (r.encFor o a).length <;> simp_all) (by
        rw [Flat.adv_bytes, hb', hd.record]; simp)
    refine ⟨⟨⟨c, h1, h2⟩, h4.1⟩, ?_⟩
    have h5 := h4.2
    rw [Flat.adv_adv] at h5
    simpa [encSession, visitMany] using h5

/-- **C69** From the bytes of the attr to the records. The attr is written in the size `n` of one of its versions; the event
has the settings `a.upTo n`, i.e. fields not passed are zero. Four bytes must follow the attr (C39); `hid` holds if source and
host have the same byte order (C59). -/
theorem c69_recording_partial (hp : RepP p f) (hs : Src f.cfg o) (a : Attr) (n : Nat) (r2 : U16) (r3 : U32)
    (hn : n ∈ kattrSizes) (hb : f.s.bytes = kattr o a n r2 r3 ++ tl) (htl : 4 ≤ tl.length)
    (hst : a.sampleType.toNat < 2 ^ 40) (hrf : a.readFormat.toNat < 2 ^ 5) (host : Order)
    (hid : a.trailers host = a.trailers o) :
    ∃ x : Attr, ((P.parseAttr : P β Attr) p).res = .ok x ∧
      ∀ {γ : Type} [ParseBuf γ] [Lawful γ] {q : Parser γ} {g : Flat} (e : Endian) (_ : RepP q g) (_ : g.cfg = .ofAttr e host x)
        (_ : Src g.cfg o) (rs : List KRecord) {tl' : List Byte}
        (_ : ∀ r ∈ rs, r.body.OkFor e.isNative o (a.upTo n) r.misc ∧ r.sizeFor o (a.upTo n) < 65536)
        (_ : (∃ r ∈ rs, r.body.needsAlignment = true) → e.isNative = true →
          g.s.al = .temp ∨ AlMod g.s.al 0 ∧ ∀ r ∈ rs, r.sizeFor o (a.upTo n) % 8 = 0)
        (_ : g.s.bytes = encSession o (a.upTo n) rs ++ tl') (v : Visitor Cow O),
        Delivers v o (a.upTo n) (visitMany v rs.length q).1 rs ∧
        RepP (visitMany v rs.length q).2 (g.adv (encSession o (a.upTo n) rs).length) := by
  refine ⟨a.upTo n, (c39_published_partial hp hs a n r2 r3 hn hb htl).1, ?_⟩
  intro γ _ _ q g e hq hg hs' rs tl' hok hal hb' v
  have hid' : (a.upTo n).trailers host = (a.upTo n).trailers o := by
    cases host <;> cases o <;> exact hid
  have hd : Describes o (a.upTo n) g.cfg := by rw [hg]; exact c69_config e host (a.upTo n) hst hrf hid'
  have he : g.cfg.endian = e := by rw [hg]; rfl
  exact c69_records_partial hq hs' (a.upTo n) hd hrf rs (by rw [he]; exact hok) (by rw [he]; exact hal) hb' v

/-- The same host and source: every condition on byte orders holds. -/
theorem c69_same_order (host : Order) (a : Attr) (hst : a.sampleType.toNat < 2 ^ 40) (hrf : a.readFormat.toNat < 2 ^ 5) :
    Describes host a (.ofAttr (.native host) host a) ∧ Src (.ofAttr (.native host) host a) host :=
  ⟨c69_config _ _ _ hst hrf rfl, Src.native _ _⟩

/-! ## A recording -/

/-- TID, TIME, READ and CPU are sampled, all records have a trailer, counters come in groups with ids. -/
def demoEventAttr : Attr :=
  { sampleType := 0x96, readFormat := 0xc, flags := 1#64 <<< 18, sampleRegsUser := 7, config := 3 }

def demoEventTrailer : KTrailer := ⟨10, 11, 12, 13, 14, 15, 16, 17⟩
def demoEventSample : KSample :=
  { identifier := 1, ip := 2, pid := 10, tid := 11, time := 3, addr := 4, id := 5, streamId := 6, cpu := 7, res := 8, period := 9
    read := ⟨1, 2, 3, 4, 5⟩, group := ⟨1, 2, [⟨100, 1, 0⟩, ⟨200, 2, 0⟩]⟩, callchain := [], raw := [], rawPad := [], lbrHwIndex := 0
    lbr := [], regsUser := ⟨0, []⟩, stack := [], dynSize := 0, weight := 0, dataSrc := 0, transaction := 0, regsIntr := ⟨0, []⟩
    physAddr := 0, cgroup := 0, dataPageSize := 0, codePageSize := 0, aux := [] }
def demoEvents : List KRecord :=
  [⟨2, .comm 10 11 ⟨[97, 98], 6⟩, demoEventTrailer⟩, ⟨1, .sample demoEventSample, demoEventTrailer⟩,
   ⟨0, .exit ⟨10, 1, 11, 1, 99⟩, demoEventTrailer⟩]

/-- The attr as it is in a file, with something behind it; then the records, with the configuration made from what was parsed. -/
def demoEventVisitor : Visitor Cow (Metadata × Option (Record Cow)) where
  unimplemented md := .ok (md, none)
  comm := some fun r md => .ok (md, some (.comm r))
  sample := some fun r md => .ok (md, some (.sample r))
  exit := some fun r md => .ok (md, some (.exit r))
def demoEventRun (o : Order) (rs : List KRecord) : List (Except Fault (Metadata × Option (Record Cow))) :=
  let e := Endian.dynamic o .little
  match ((P.parseAttr : P Slice Attr) (Parser.new ⟨0, kattr o demoEventAttr 64 0 0 ++ [0, 0, 0, 0]⟩
    { anyCfg with endian := e })).res with
  | .ok a => (visitMany demoEventVisitor rs.length
      (Parser.new (⟨4096, encSession o demoEventAttr rs⟩ : Slice) (.ofAttr e .little a))).1
  | .error _ => []
/-- The three records and what their trailers say. -/
example : (match demoEventRun .little demoEvents with
    | [.ok (m1, some (.comm c)), .ok (m2, some (.sample s)), .ok (m3, some (.exit x))] =>
      m1.sampleId.pid == some 10 && m1.sampleId.time == some 12 && m1.sampleId.cpu == some 15 && m1.sampleId.streamId == none &&
      c.comm.data == [97, 98] && s.pid == some 10 && s.time == some 3 && s.cpu == some 7 && s.period == none &&
      (match s.values with | some g => g.data.data == [100, 1, 200, 2] | none => false) && m2.sampleId.pid == none &&
      x.time == 99 && m3.sampleId.tid == some 11
    | _ => false) = true := by decide +kernel

/-- Its hypotheses hold of this recording: the events are decodable and their sizes are multiples of 8. -/
example : ∀ r ∈ demoEvents, r.body.OkFor true .little demoEventAttr r.misc ∧ r.sizeFor .little demoEventAttr < 65536 ∧
    r.sizeFor .little demoEventAttr % 8 = 0 := by
  intro r hr
  simp only [demoEvents, List.mem_cons, List.not_mem_nil, or_false] at hr
  rcases hr with rfl | rfl | rfl
  · exact ⟨⟨by decide, by decide⟩, by decide, by decide⟩
  · refine ⟨?_, by decide +kernel, by decide +kernel⟩
    constructor <;> decide +kernel
  · exact ⟨trivial, by decide, by decide⟩

/-- **C69** is false of recordings with SWITCH records (C38), and of a big endian recording read on a little endian host, where
`sample_id_all` is looked up in the wrong place (C59): the trailer is not taken off the record. -/
theorem c69_false :
    (match demoEventRun .little [⟨0, .switch, demoEventTrailer⟩] with
    | [.error (.err e)] => e.kind == .eof
    | _ => false) = true ∧
    (match visitMany demoEventVisitor 1 (Parser.new (⟨4096, encSession .big { demoEventAttr with flags := 1#64 <<< 45 }
        [⟨0, .exit ⟨10, 1, 11, 1, 99⟩, demoEventTrailer⟩]⟩ : Slice)
        (.ofAttr (.dynamic .big .little) .little { demoEventAttr with flags := 1#64 <<< 45 })) with
    | ([.ok (m, some (.exit x))], _) => m.sampleId.pid == none && x.time == 99
    | _ => false) = true := by decide +kernel

end Perf
