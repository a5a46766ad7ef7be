import Verif.Proof.Work2
import Verif.Props.Memory
/-!
# C71: how many calls on the buffer parsing makes
-/
namespace Perf
variable {β : Type} [ParseBuf β] {O : Type}

/-! ## C71 -/

/-- **C71** A counting wrapper changes nothing: same result, same memory requests, same bytes consumed. -/
theorem c71_counting (v : Visitor Cow O) (p : Parser β) :
    (P.record v p.counted).res = (P.record v p).res ∧ (P.record v p.counted).log = (P.record v p).log ∧
    (P.record v p.counted).st.uncounted = (P.record v p).st := by
  have h := Strips.record v p.counted
  have hp : p.counted.uncounted = p := rfl
  rw [hp] at h
  rw [← h]
  exact ⟨rfl, rfl, rfl⟩

/-- **C71** `parse_record` calls the buffer at most three times per byte it consumes, and twice more if it fails. -/
theorem c71_calls {J : β → Prop} (hJ : Prompt J) (v : Visitor Cow O) (p : Parser β) (hp : J p.data.buf) :
    (P.record v p.counted).st.calls ≤ 3 * ((P.record v p).st.data.offset - p.data.offset) + 2 ∧
    ∀ a, (P.record v p).res = .ok a →
      (P.record v p.counted).st.calls ≤ 3 * ((P.record v p).st.data.offset - p.data.offset) := by
  obtain ⟨_, h2, h3⟩ := Works.record hJ.busy v p.counted hp
  obtain ⟨c1, _, c3⟩ := c71_counting v p
  have e1 : (P.record v p.counted).st.data.offset = (P.record v p).st.data.offset := by rw [← c3]; rfl
  rw [e1] at h2 h3
  have h0 : p.counted.calls = 0 := rfl
  have h4 : p.counted.data.offset = p.data.offset := rfl
  rw [h4] at h2 h3
  rw [h0] at h3
  refine ⟨?_, fun a ha => ?_⟩
  · have : Works.extra 2 (P.record v p.counted).res ≤ 2 := by cases (P.record v p.counted).res <;> simp only [Works.extra] <;> omega
    omega
  · rw [c1, ha] at h3
    simp only [Works.extra] at h3
    omega

/-- **C71** In terms of the header: at most three calls per byte of the record, plus two. -/
theorem c71_size {J : β → Prop} (hJ : Prompt J) (v : Visitor Cow O) (p : Parser β) (hp : J p.data.buf) :
    (∀ e, ((parseHeader : P β Header) p).res = .error e → (P.record v p.counted).st.calls ≤ 26) ∧
    ∀ h, ((parseHeader : P β Header) p).res = .ok h → (P.record v p.counted).st.calls ≤ 3 * max 8 h.size.toNat + 2 := by
  have hc := (c71_calls hJ v p hp).1
  have hh := AtMost.header (β := β) p
  rcases P.record_header v p with ⟨e, h1, _, _, h3⟩ | ⟨h, h1, h2⟩
  · rw [h3] at hc
    refine ⟨fun _ _ => by omega, fun h h' => ?_⟩
    rw [h1] at h'; cases h'
  · rw [h2] at hc
    have hb := AtMost.recordWithHeader v h ((parseHeader : P β Header) p).st
    refine ⟨fun e h' => ?_, fun h' e' => ?_⟩
    · rw [h1] at h'; cases h'
    · rw [h1] at e'; cases e'
      omega

/-- **C71** Whatever the bytes, one call of `parse_record` makes fewer than 196,608 calls on the buffer. -/
theorem c71_absolute {J : β → Prop} (hJ : Prompt J) (v : Visitor Cow O) (p : Parser β) (hp : J p.data.buf) :
    (P.record v p.counted).st.calls < 196608 := by
  obtain ⟨h1, h2⟩ := c71_size hJ v p hp
  rcases hm : ((parseHeader : P β Header) p).res with e | h
  · have := h1 e hm; omega
  · have := h2 h hm
    have := h.size.isLt
    omega

/-- **C71** for a slice and for a `BufReader`, in any state and with any reader behind it. -/
theorem c71_std (v : Visitor Cow O) :
    (∀ p : Parser Slice, (P.record v p.counted).st.calls < 196608) ∧
    ∀ p : Parser BufReader, (P.record v p.counted).st.calls < 196608 :=
  ⟨fun p => c71_absolute Prompt.slice v p trivial, fun p => c71_absolute Prompt.bufReader v p trivial⟩

/-- The body of a record, over any buffer: three calls per byte it consumes, plus 18. -/
theorem c71_body {J : β → Prop} (hJ : Prompt J) (v : Visitor Cow O) (md : Metadata) (p : Parser β) (hp : J p.data.buf) :
    (P.dispatch v md p.counted).st.calls ≤ 3 * ((P.dispatch v md p).st.data.offset - p.data.offset) + 18 := by
  obtain ⟨_, h2, h3⟩ := Works.dispatch hJ.busy v md p.counted hp
  have hs := Strips.dispatch v md p.counted
  have e1 : (P.dispatch v md p.counted).st.data.offset = (P.dispatch v md p).st.data.offset := by
    have : p.counted.uncounted = p := rfl
    rw [this] at hs
    rw [← hs]
    rfl
  rw [e1] at h2 h3
  have h0 : p.counted.calls = 0 := rfl
  have h4 : p.counted.data.offset = p.data.offset := rfl
  rw [h4] at h2 h3
  rw [h0] at h3
  have : Works.extra 2 (P.dispatch v md p.counted).res ≤ 2 := by
    cases (P.dispatch v md p.counted).res <;> simp only [Works.extra] <;> omega
  omega

/-- A buffer with at most `n` bytes: at most `3 * n + 18` calls. -/
theorem c71_extent {J : β → Prop} (hJ : Prompt J) {n : Nat} {E : Nat → β → Prop} (e : Extent n E) (v : Visitor Cow O) (md : Metadata)
    (b : β) (cfg : ParseConfig) (hb : J b) (hE : E n b) :
    (P.dispatch v md (Parser.new b cfg).counted).st.calls ≤ 3 * n + 18 := by
  have h := c71_body hJ v md (Parser.new b cfg) hb
  have h1 := (Owes.dispatch e.room v md (Parser.new b cfg) ⟨Nat.zero_le _, hE⟩).1.1
  have h2 : (Parser.new b cfg).data.offset = 0 := rfl
  omega

/-- **C71** The body of a record announced as `size` bytes is parsed with at most `3 * (size - 8) + 18` calls on the region
split off for it, whether that region is used as a cursor or, being one borrowed piece, as a slice. -/
theorem c71_region (v : Visitor Cow O) (h : Header) (p : Parser β) (q : Parser Cursor) (md : Metadata)
    (hq : (P.metadataWithHeader h p).res = .ok (q, md)) :
    (P.dispatch v md (Parser.new q.data (q.config.withMisc md.misc)).counted).st.calls ≤ 3 * (h.size.toNat - 8) + 18 ∧
    ∀ d, q.data.buf.asSlice = some d → ∀ t,
      (P.dispatch v md (Parser.new (⟨d, t⟩ : Tracking Slice) (q.config.withMisc md.misc)).counted).st.calls ≤
        3 * (h.size.toNat - 8) + 18 := by
  have hin : q.data.buf.Inside := ((Inv.regionOf (I := fun _ : Parser β => True) (G := Cursor.Inside) Inv.inside
    (fun n p q _ hq => (Inv.inside n p trivial).2 q hq) h) p trivial).2 _ hq
  obtain ⟨h1, h2, h3⟩ := (Costs.metadataWithHeader (β := β) h p).2 _ hq
  simp only at h1 h2 h3
  refine ⟨?_, fun d hd t => ?_⟩
  · refine c71_extent Prompt.cursor.tracking (Extent.cursor (h.size.toNat - 8)).tracking v md q.data _ hin ⟨?_, ?_, ?_⟩ <;> omega
  · refine c71_extent Prompt.slice.tracking (Extent.slice (h.size.toNat - 8)).tracking v md ⟨d, t⟩ _ trivial
      ⟨?_, Nat.le_refl _⟩
    unfold Cursor.asSlice at hd
    split at hd
    · rename_i a x hx
      cases hd
      have hx' : q.data.buf.chunks = [⟨.external a, x⟩] := hx
      rw [hx'] at h1
      have : x.length + 0 ≤ h.size.toNat - 8 := h1
      exact this
    · cases hd

/-- **C71** Taking the trailing `sample_id` off a region of a record, or reading it, is three calls per byte as well. -/
theorem c71_trailer {J : β → Prop} (hJ : Prompt J) (n : Nat) (p : Parser β) (hp : J p.data.buf) :
    (P.splitAt n p.counted).st.calls ≤ 2 * n + 1 ∧
    ((parseSampleId : P (Counted β) SampleId) p.counted).st.calls ≤
      3 * (((parseSampleId : P β SampleId) p).st.data.offset - p.data.offset) + 2 := by
  constructor
  · obtain ⟨_, h2, h3⟩ := Works.splitAt hJ.busy n p.counted hp
    have h4 := AtMost.splitAt (β := Counted β) n p.counted
    have h5 : p.counted.calls = 0 := rfl
    have : Works.extra 1 (P.splitAt n p.counted).res ≤ 1 := by
      cases (P.splitAt n p.counted).res <;> simp only [Works.extra] <;> omega
    omega
  · obtain ⟨_, h2, h3⟩ := Works.sampleId hJ.busy p.counted hp
    have hs := Strips.closed.sampleId p.counted
    have e1 : ((parseSampleId : P (Counted β) SampleId) p.counted).st.data.offset =
        ((parseSampleId : P β SampleId) p).st.data.offset := by
      have : p.counted.uncounted = p := rfl
      rw [this] at hs
      rw [← hs]
      rfl
    have h5 : p.counted.calls = 0 := rfl
    have h6 : p.counted.data.offset = p.data.offset := rfl
    rw [e1, h6] at h2 h3
    have : Works.extra 2 ((parseSampleId : P (Counted β) SampleId) p.counted).res ≤ 2 := by
      cases ((parseSampleId : P (Counted β) SampleId) p.counted).res <;> simp only [Works.extra] <;> omega
    omega

/-- A reader that gives one byte at a time: 19 calls for the eight bytes of a header and 16 for the
other eight of this `LOST_SAMPLES` record, so more than two per byte. -/
theorem demo71 :
    (let r : BufReader := ⟨[], [13, 0, 0, 0, 0, 0, 16, 0, 1, 2, 3, 4, 5, 6, 7, 8].map fun b => .data [b]⟩
     let o := P.record (recordVisitor Cow) (Parser.new r demoCfg).counted
     (match o.res with
      | .ok (.lostSamples x) => decide (x.lost = 0x0807060504030201)
      | _ => false) && decide (o.st.calls = 35)) = true := by decide +kernel

/-- A buffer that shows an empty chunk `idle` times before its data. -/
structure Idle where
  idle : Nat
  data : Slice

instance : ParseBuf Idle where
  chunk b := if b.idle = 0 then ((ParseBuf.chunk b.data).1, b) else (.ok ⟨.temporary, []⟩, ⟨b.idle - 1, b.data⟩)
  advance b n := (ParseBuf.advance b.data n).map fun d => ⟨b.idle, d⟩
  hint b := ParseBuf.hint b.data
  steps b := b.idle + b.data.data.length

/-- Without promptness there is no such bound: here 40 empty chunks cost about two calls each. -/
theorem demo71_empty :
    (let o := P.record (recordVisitor Cow) (Parser.new (⟨40, ⟨0, [13, 0, 0, 0, 0, 0, 8, 0]⟩⟩ : Idle) demoCfg).counted
     decide (o.st.data.offset = 8) && decide (o.st.calls > 80)) = true := by decide +kernel

end Perf
