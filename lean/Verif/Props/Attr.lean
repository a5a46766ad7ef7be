import Verif.Proof.Attr
import Verif.Props.Inputs
/-!
# C39, C40: `perf_event_attr`

The parser consumes 8 bytes (`type` and `size`) and then splits off `size - 4` more, 4 bytes more than the structure
has. So the properties fail on a structure that is not followed by 4 further bytes, and what is proved positively
asks for those bytes.
-/
namespace Perf
open ParserM
variable {β : Type} [ParseBuf β] [Lawful β] {p : Parser β} {f : Flat} {o : Order} {tl : List Byte}

theorem Refines.attr_err {e : ParseError} (hp : RepP p f) (h : Spec.parseAttr f = .error (.err e)) :
    ((P.parseAttr : P β Attr) p).res = .error (.err e) := by
  have := Refines.attr p f hp
  rw [h] at this
  exact this

theorem Refines.attr_ok {a : Attr} {g : Flat} (hp : RepP p f) (h : Spec.parseAttr f = .ok (a, g)) :
    ((P.parseAttr : P β Attr) p).res = .ok a ∧ RepP ((P.parseAttr : P β Attr) p).st g := by
  have := Refines.attr p f hp
  rw [h] at this
  obtain ⟨_, h1, rfl, h2⟩ := this
  exact ⟨h1, h2⟩

/-! ## C39 -/

/-- C39 for the published sizes, provided that 4 more bytes follow: the fields of that size are returned and the others
are zero. Those 4 bytes are consumed too. -/
theorem c39_published_partial (hp : RepP p f) (hs : Src f.cfg o) (a : Attr) (n : Nat) (r2 : U16) (r3 : U32)
    (hn : n ∈ kattrSizes) (hb : f.s.bytes = kattr o a n r2 r3 ++ tl) (htl : 4 ≤ tl.length) :
    ((P.parseAttr : P β Attr) p).res = .ok (a.upTo n) ∧ RepP ((P.parseAttr : P β Attr) p).st (f.adv (n + 4)) := by
  have hl : 64 ≤ n ∧ n ≤ 136 := by
    simp only [kattrSizes, List.mem_cons, List.not_mem_nil, or_false] at hn; omega
  have hnat : (BitVec.ofNat 32 n).toNat = n := toNat_ofNat_lt (by omega)
  rw [kattr_eq _ _ _ _ _ (.inl hn), show n - 136 = 0 by omega, List.replicate_zero, List.append_nil] at hb
  refine Refines.attr_ok hp ?_
  rw [Spec.parseAttr_head hs a.type_ (BitVec.ofNat 32 n) (tl := kattrBody o a n r2 r3 ++ tl) (by rw [hb]; simp)]
  have hlen := kattrBody_length o a n r2 r3 (.inl hn)
  have hbytes : (f.adv 8).s.bytes = kattrBody o a n r2 r3 ++ tl := by simp [hb, drop_head]
  have hreg : ((f.adv 8).region (n - 4)).s.bytes = kattrBody o a n r2 r3 ++ tl.take 4 := by
    show (f.adv 8).s.bytes.take _ = _
    rw [hbytes, List.take_append, List.take_of_length_le (by omega), hlen, show n - 4 - (min n 136 - 8) = 4 by omega]
  have hr := Reads.attrBody (nd := ⟨false, false⟩) (k := 0) (tl := tl.take 4) (cfg := f.cfg) hs a n r2 r3 hn
    ((f.adv 8).region (n - 4)) rfl nofun nofun hreg
  rw [Spec.attrRest_ok (by rw [hnat]; exact (Attr.sizeOk_iff n).2 (.inl hn))
    (by rw [hnat, hbytes, List.length_append, hlen]; omega) (by rw [hnat]; exact hr)]
  simp only [hnat, Flat.adv_adv, show 8 + (n - 4) = n + 4 by omega]

/-- C39 for larger, zero-extended sizes, provided that 4 more zero bytes follow. -/
theorem c39_larger_partial (hp : RepP p f) (hs : Src f.cfg o) (a : Attr) (n : Nat) (r2 : U16) (r3 : U32)
    (hn : 136 < n) (hl : n < 2 ^ 32) (hb : f.s.bytes = kattr o a n r2 r3 ++ (List.replicate 4 0#8 ++ tl)) :
    ((P.parseAttr : P β Attr) p).res = .ok (a.upTo n) ∧ RepP ((P.parseAttr : P β Attr) p).st (f.adv (n + 4)) := by
  have hnat : (BitVec.ofNat 32 n).toNat = n := toNat_ofNat_lt (by omega)
  rw [kattr_eq _ _ _ _ _ (.inr hn)] at hb
  refine Refines.attr_ok hp ?_
  have hlen := kattrBody_length o a n r2 r3 (.inr hn)
  have hbytes : (f.adv 8).s.bytes = (kattrBody o a n r2 r3 ++ List.replicate (n - 136 + 4) 0#8) ++ tl := by
    rw [List.replicate_append_replicate.symm]; simp [hb, drop_head]
  rw [Spec.parseAttr_head hs a.type_ (BitVec.ofNat 32 n)
    (tl := kattrBody o a n r2 r3 ++ List.replicate (n - 136) 0#8 ++ List.replicate 4 0#8 ++ tl) (by rw [hb]; simp)]
  have hreg : ((f.adv 8).region (n - 4)).s.bytes =
      kattrBody o a n r2 r3 ++ List.replicate (n - 136 + 4) 0#8 ++ [] := by
    show (f.adv 8).s.bytes.take _ = _
    rw [hbytes, List.append_nil, List.take_left' (by rw [List.length_append, List.length_replicate, hlen]; omega)]
  have hr := Reads.attrBody_zero (nd := ⟨false, true⟩) (k := 0) (cfg := f.cfg) hs a n r2 r3 hn hl rfl (n - 136 + 4)
    (by omega) ((f.adv 8).region (n - 4)) rfl (fun _ => rfl) nofun hreg
  rw [Spec.attrRest_ok (by rw [hnat]; exact (Attr.sizeOk_iff n).2 (.inr hn))
    (by rw [hnat, hbytes, List.length_append, List.length_append, List.length_replicate, hlen]; omega)
    (by rw [hnat]; exact hr)]
  simp only [hnat, Flat.adv_adv, show 8 + (n - 4) = n + 4 by omega]

/-- C39 is false of the code: a structure of any size and any content is not parsed if fewer than 4 bytes follow it. -/
theorem c39_exact_false (hp : RepP p f) (hs : Src f.cfg o) (a : Attr) (n : Nat) (r2 : U16) (r3 : U32)
    (hn : n ∈ kattrSizes ∨ 136 < n) (hl : n < 2 ^ 32) (hb : f.s.bytes = kattr o a n r2 r3 ++ tl) (htl : tl.length < 4) :
    ((P.parseAttr : P β Attr) p).res = .error (.err f.s.fin) := by
  have hnat : (BitVec.ofNat 32 n).toNat = n := toNat_ofNat_lt (by omega)
  have h64 : 64 ≤ n := by
    rcases hn with hn | hn
    · simp only [kattrSizes, List.mem_cons, List.not_mem_nil, or_false] at hn; omega
    · omega
  rw [kattr_eq _ _ _ _ _ hn] at hb
  refine Refines.attr_err hp ?_
  have hlen := kattrBody_length o a n r2 r3 hn
  have hbytes : (f.adv 8).s.bytes = kattrBody o a n r2 r3 ++ List.replicate (n - 136) 0#8 ++ tl := by simp [hb, drop_head]
  rw [Spec.parseAttr_head hs a.type_ (BitVec.ofNat 32 n)
    (tl := kattrBody o a n r2 r3 ++ List.replicate (n - 136) 0#8 ++ tl) (by rw [hb]; simp)]
  rw [Spec.attrRest_short (by rw [hnat]; exact (Attr.sizeOk_iff n).2 hn) (by
    rw [hnat, hbytes, List.length_append, List.length_append, List.length_replicate, hlen]; omega)]
  rfl

/-! ## C40 -/

/-- C40: a size that is neither published nor larger than the newest is rejected, whatever else there is. -/
theorem c40_size (hp : RepP p f) (hs : Src f.cfg o) (t s : U32) (hb : f.s.bytes = e32 o t ++ e32 o s ++ tl)
    (h1 : s.toNat ∉ kattrSizes) (h2 : s.toNat ≤ 136) :
    ((P.parseAttr : P β Attr) p).res =
      .error (.err (.custom .invalidRecord s!"{s.toNat} is not a valid size for a perf_event_attr struct")) := by
  refine Refines.attr_err hp ?_
  rw [Spec.parseAttr_head hs t s hb]
  unfold Spec.attrRest
  rw [show Attr.sizeOk s.toNat = false by
    rw [← Bool.not_eq_true, Attr.sizeOk_iff]; intro h; exact h.elim h1 (by omega)]
  rfl

/-- All that the code looks at: the bytes from 136 up to `size + 4`. -/
theorem attr_unsupported (hp : RepP p f) (hs : Src f.cfg o) (t s : U32) (known unknown : List Byte)
    (hn : 136 < s.toNat) (hk : known.length = 128) (hu : unknown.length = s.toNat - 132) (h0 : ∃ b ∈ unknown, b ≠ 0#8)
    (hb : f.s.bytes = e32 o t ++ e32 o s ++ (known ++ unknown ++ tl)) :
    ((P.parseAttr : P β Attr) p).res = .error (.err (.custom .unsupportedData
      "serialized perf_event_attr contains fields not supported by this version of perf-event-data")) := by
  refine Refines.attr_err hp ?_
  rw [Spec.parseAttr_head hs t s hb]
  have hbytes : (f.adv 8).s.bytes = known ++ unknown ++ tl := by simp [hb, drop_head]
  have hreg : ((f.adv 8).region (s.toNat - 4)).s.bytes = known ++ unknown := by
    show (f.adv 8).s.bytes.take _ = _
    rw [hbytes, List.take_left' (by rw [List.length_append]; omega)]
  obtain ⟨a, ha⟩ := (Fixed.attrHead (cfg := f.cfg) t s hn ((f.adv 8).region (s.toNat - 4)) rfl).1 (by
    rw [hreg, List.length_append]; omega)
  have hrest : (((f.adv 8).region (s.toNat - 4)).adv 128).s.bytes = unknown := by
    simp only [Flat.adv_bytes, hreg, ← hk, List.drop_left]
  have hne : unknown ≠ [] := by
    obtain ⟨b, hb, _⟩ := h0
    intro h
    rw [h] at hb
    cases hb
  have hr : (ParserM.rest : Spec (List Byte)) (((f.adv 8).region (s.toNat - 4)).adv 128) =
      .ok (unknown, (((f.adv 8).region (s.toNat - 4)).adv 128).adv unknown.length) :=
    Reads.rest (cfg := f.cfg) (nd := ⟨false, true⟩) (k := 0) rfl hne _ rfl (fun _ => rfl) nofun (by rw [hrest, List.append_nil])
  have hnz : (elems Spec unknown).all (· == 0#8) = false := by
    rw [← Bool.not_eq_true]
    show ¬ unknown.all (· == 0#8) = true
    rw [List.all_eq_true]
    intro h
    obtain ⟨b, hb, hb0⟩ := h0
    exact hb0 (eq_of_beq (h b hb))
  have hbody : (Perf.attrBody t s : Spec Attr) ((f.adv 8).region (s.toNat - 4)) = .error (.err (.custom .unsupportedData
      "serialized perf_event_attr contains fields not supported by this version of perf-event-data")) := by
    unfold Perf.attrBody
    rw [Spec.bind_ok ha, show decide (s.toNat > Attr.VER8) = true by rw [decide_eq_true_eq]; exact hn]
    show (Perf.attrTail a : Spec Attr) _ = _
    unfold Perf.attrTail
    rw [Spec.bind_ok hr, hnz]
    rfl
  rw [Spec.attrRest_err ((Attr.sizeOk_iff _).2 (.inr hn)) (by
    rw [hbytes, List.length_append, List.length_append]; omega) hbody]

/-- C40, provided that 4 more bytes follow the structure: a larger one with a non-zero byte that is not known is
rejected. -/
theorem c40_unknown_partial (hp : RepP p f) (hs : Src f.cfg o) (t s : U32) (known unknown : List Byte)
    (hn : 136 < s.toNat) (hk : known.length = 128) (hu : unknown.length = s.toNat - 136) (h0 : ∃ b ∈ unknown, b ≠ 0#8)
    (hb : f.s.bytes = e32 o t ++ e32 o s ++ (known ++ unknown ++ tl)) (htl : 4 ≤ tl.length) :
    ((P.parseAttr : P β Attr) p).res = .error (.err (.custom .unsupportedData
      "serialized perf_event_attr contains fields not supported by this version of perf-event-data")) := by
  obtain ⟨b, hb1, hb2⟩ := h0
  refine attr_unsupported (tl := tl.drop 4) hp hs t s known (unknown ++ tl.take 4) hn hk ?_
    ⟨b, List.mem_append_left _ hb1, hb2⟩ ?_
  · rw [List.length_append, List.length_take]; omega
  · rw [hb]
    simp only [List.append_assoc, List.take_append_drop]

/-- C40 is false of the code if fewer than 4 bytes follow: such a structure is reported as an incomplete one. -/
theorem c40_exact_false (hp : RepP p f) (hs : Src f.cfg o) (t s : U32) (rest : List Byte)
    (hn : 136 < s.toNat) (hb : f.s.bytes = e32 o t ++ e32 o s ++ rest) (hr : rest.length < s.toNat - 4) :
    ((P.parseAttr : P β Attr) p).res = .error (.err f.s.fin) := by
  refine Refines.attr_err hp ?_
  rw [Spec.parseAttr_head hs t s hb]
  have hbytes : (f.adv 8).s.bytes = rest := by simp [hb, drop_head]
  rw [Spec.attrRest_short ((Attr.sizeOk_iff _).2 (.inr hn)) (by rw [hbytes]; omega)]
  rfl

/-- The 4 bytes that follow are taken for unknown fields: a valid structure is rejected because of them. -/
theorem c40_contaminated_false (hp : RepP p f) (hs : Src f.cfg o) (a : Attr) (n : Nat) (r2 : U16) (r3 : U32)
    (hn : 136 < n) (hl : n < 2 ^ 32) (hb : f.s.bytes = kattr o a n r2 r3 ++ tl) (h0 : ∃ b ∈ tl.take 4, b ≠ 0#8)
    (htl : 4 ≤ tl.length) :
    ((P.parseAttr : P β Attr) p).res = .error (.err (.custom .unsupportedData
      "serialized perf_event_attr contains fields not supported by this version of perf-event-data")) := by
  rw [kattr_eq _ _ _ _ _ (.inr hn)] at hb
  have hnat : (BitVec.ofNat 32 n).toNat = n := toNat_ofNat_lt hl
  obtain ⟨b, hb1, hb2⟩ := h0
  refine attr_unsupported (tl := tl.drop 4) hp hs a.type_ (BitVec.ofNat 32 n) (kattrBody o a n r2 r3)
    (List.replicate (n - 136) 0#8 ++ tl.take 4) (by omega) ?_ ?_ ⟨b, List.mem_append_right _ hb1, hb2⟩ ?_
  · rw [kattrBody_length _ _ _ _ _ (.inr hn)]; omega
  · rw [List.length_append, List.length_take, List.length_replicate, hnat]; omega
  · rw [hb]
    simp only [List.append_assoc, List.take_append_drop]

/-! ## Examples -/

/-- An attribute with every field set. -/
def fullAttr : Attr where
  type_ := 1#32
  size := 0#32
  config := 0x1122334455667788#64
  samplePeriod := 4000#64
  sampleType := 0x187#64
  readFormat := 4#64
  flags := 0x40001#64
  wakeupEvents := 1#32
  bpType := 2#32
  config1 := 3#64
  config2 := 4#64
  branchSampleType := 5#64
  sampleRegsUser := 6#64
  sampleStackUser := 7#32
  clockid := 8#32
  sampleRegsIntr := 9#64
  auxWatermark := 10#32
  sampleMaxStack := 11#16
  auxSampleSize := 12#32
  sigData := 13#64
  config3 := 14#64

/-- A big endian file on a little endian host. -/
def demoAttrCfg : ParseConfig := .default (.big .little) .little

theorem demoAttrWf : demoAttrCfg.Wf := ParseConfig.wf_big _ _
theorem demoAttrSrc : Src demoAttrCfg .big := Src.big _ _

/-- Parse some bytes in a slice. -/
def demoAttrRun (bs : List Byte) : Except Fault Attr :=
  ((P.parseAttr : P Slice Attr) (Parser.new ⟨0, bs⟩ demoAttrCfg)).res

/-- `c39_published_partial` on a version 3 structure, big endian; the fields of later versions are zero. -/
example (bs : List Byte) (h : bs = kattr .big fullAttr 96 0#16 0#32 ++ [1#8, 2#8, 3#8, 4#8]) :
    demoAttrRun bs = .ok (fullAttr.upTo 96) :=
  (c39_published_partial (RepP.slice 0 bs demoAttrWf) demoAttrSrc fullAttr 96 0#16 0#32 (by decide) h (by decide)).1
example : (fullAttr.upTo 96).clockid = 8#32 ∧ (fullAttr.upTo 96).sampleRegsIntr = 0#64 := by decide

/-- `c39_larger_partial` on a structure of 140 bytes. -/
example (bs : List Byte) (h : bs = kattr .big fullAttr 140 0#16 0#32 ++ (List.replicate 4 0#8 ++ [9#8])) :
    demoAttrRun bs = .ok (fullAttr.upTo 140) :=
  (c39_larger_partial (RepP.slice 0 bs demoAttrWf) demoAttrSrc fullAttr 140 0#16 0#32 (by decide) (by decide) h).1

/-- `c39_exact_false`: a complete structure and nothing else. -/
example (bs : List Byte) (h : bs = kattr .big fullAttr 136 0#16 0#32 ++ []) : demoAttrRun bs = .error (.err .eof) :=
  c39_exact_false (RepP.slice 0 bs demoAttrWf) demoAttrSrc fullAttr 136 0#16 0#32 (by decide) (by decide) h (by decide)

/-- The same, and with enough bytes after it, by running the model. -/
example : (match demoAttrRun (kattr .big fullAttr 64 0#16 0#32) with
    | .error (.err e) => e.kind == .eof
    | _ => false) = true := by decide +kernel
example : (match demoAttrRun (kattr .big fullAttr 72 0#16 0#32 ++ [1#8, 2#8, 3#8, 4#8]) with
    | .ok a => a == fullAttr.upTo 72
    | _ => false) = true := by decide +kernel

/-- `c40_size` for a size of 65. -/
example (bs : List Byte) (h : bs = e32 .big 0#32 ++ e32 .big 65#32 ++ [1#8]) :
    demoAttrRun bs = .error (.err (.custom .invalidRecord
      s!"{(65#32).toNat} is not a valid size for a perf_event_attr struct")) :=
  c40_size (RepP.slice 0 bs demoAttrWf) demoAttrSrc 0#32 65#32 h (by decide) (by decide)

/-- `c40_unknown_partial` with a non-zero byte just after the known fields. -/
example (bs : List Byte) (h : bs = e32 .big 0#32 ++ e32 .big 137#32 ++
      (List.replicate 128 7#8 ++ [1#8] ++ [0#8, 0#8, 0#8, 0#8])) :
    demoAttrRun bs = .error (.err (.custom .unsupportedData
      "serialized perf_event_attr contains fields not supported by this version of perf-event-data")) :=
  c40_unknown_partial (RepP.slice 0 bs demoAttrWf) demoAttrSrc 0#32 137#32 _ [1#8] (by decide)
    List.length_replicate rfl ⟨1#8, by decide, by decide⟩ h (by decide)

/-- `c40_exact_false`: an unknown field is set, but the error is another one. -/
example (bs : List Byte) (h : bs = e32 .big 0#32 ++ e32 .big 137#32 ++ List.replicate 129 7#8) :
    demoAttrRun bs = .error (.err .eof) :=
  c40_exact_false (RepP.slice 0 bs demoAttrWf) demoAttrSrc 0#32 137#32 _ (by decide) h
    (by rw [List.length_replicate]; decide)

/-- `c40_contaminated_false`: the byte that is not zero is not part of the structure. -/
example (bs : List Byte) (h : bs = kattr .big fullAttr 140 0#16 0#32 ++ [0#8, 0#8, 0#8, 1#8]) :
    demoAttrRun bs = .error (.err (.custom .unsupportedData
      "serialized perf_event_attr contains fields not supported by this version of perf-event-data")) :=
  c40_contaminated_false (RepP.slice 0 bs demoAttrWf) demoAttrSrc fullAttr 140 0#16 0#32 (by decide)
    (by decide) h ⟨1#8, by decide, by decide⟩ (by decide)

end Perf
