import Verif.Model.MendedRest
import Verif.Proof.IRoundTrip
import Verif.Proof.Fixed
import Verif.Props.MendedAll
import Verif.Props.Mended
import Verif.Props.Loop
import Verif.Props.Bits
import Verif.Props.Values
import Verif.Props.Streams
import Verif.Props.Prims
/-!
# C89: with the remaining corrections C14, C35, C43, C45, C46, C59 and C73 hold without exception
-/
namespace Perf
variable {β γ : Type} {O : Type}
open ParserM

/-! ## What becomes of the errors inside of a record -/

/-- The outcome with `Eof` replaced if `c`. -/
def within (c : Prop) [Decidable c] : Except ParseError (Record List × Metadata) → Except ParseError (Record List × Metadata)
  | .ok x => .ok x
  | .error e => .error (if c then e.inRecord else e)

theorem ParseError.inRecord_eof (e : ParseError) : e.inRecord.kind ≠ .eof := by
  unfold ParseError.inRecord
  split
  · exact nofun
  · assumption

theorem ParseError.inRecord_of {e : ParseError} (h : e.kind ≠ .eof) : e.inRecord = e := if_neg h

theorem Sound.checked_ok {α : Type} {m : P β α} {p q : Parser β} {a : α} {l : List Nat} (h : m p = ⟨.ok a, q, l⟩) :
    Sound.checked m p = ⟨.ok a, q, l⟩ := by
  unfold Sound.checked
  rw [h]

theorem Sound.checked_err {α : Type} {m : P β α} {p q : Parser β} {e : ParseError} {l : List Nat} (h : m p = ⟨.error (.err e), q, l⟩) :
    Sound.checked m p = ⟨.error (.err e.inRecord), q, l⟩ := by
  unfold Sound.checked
  rw [h]

/-- A frame that is all there is not an `Eof`. -/
theorem Ideal.frame_whole {f : Flat} {h : Header} (hl : h.size.toNat - 8 ≤ f.s.bytes.length) {e : ParseError}
    (he : Ideal.frame h f.input = .error e) : e.kind ≠ .eof := by
  unfold Ideal.frame at he
  split at he
  · cases he; exact nofun
  rename_i h8
  rw [if_neg (show ¬ f.input.bytes.length < _ from Nat.not_lt.mpr hl)] at he
  split at he
  · cases he
  rename_i h9
  split at he
  · cases he; exact nofun
  rename_i hest
  have hest : ¬ h.size.toNat - 8 < SampleId.estimateLen f.cfg := hest
  have hsz := h.size_lt
  obtain ⟨sid, hsid⟩ := (Fixed.sampleId (cfg := f.cfg)
    ((f.region (h.size.toNat - 8)).adv (h.size.toNat - 8 - SampleId.estimateLen f.cfg)) rfl).1 (by
      simp [Flat.region]; omega)
  have := (IKeeps.sampleId _ _ _ (by simp [Flat.region]; unfold usizeLimit; omega) hsid).1
  rw [show (parseSampleId : Ideal SampleId) ((Ideal.region f.input (h.size.toNat - 8)).adv
      (h.size.toNat - 8 - SampleId.estimateLen f.input.cfg)) = _ from this] at he
  cases he

theorem MendedOk.within {v : Visitor Cow O} {res : Except Fault O} {c : Prop} [Decidable c] (hc : c) {md : Metadata}
    (x : Except ParseError (Record List × Input)) :
    MendedOk v res (match x with
      | .error e => .error e.inRecord
      | .ok (rec, _) => .ok (rec, md)) →
    MendedOk v res (Perf.within c (match x with
      | .error e => .error e
      | .ok (rec, _) => .ok (rec, md))) := by
  intro h
  rcases x with e | ⟨rec, i⟩
  · show res = .error (.err (if c then e.inRecord else e))
    rw [if_pos hc]
    exact h
  · exact h

section
variable [ParseBuf β] [Lawful β]

theorem Sound.recordImpl_run {β : Type} [ParseBuf β] [ParseBuf γ] [LawfulEof γ] {q : Parser γ} {g : Flat} (hq : RepP q g) (h0 : g.off = 0)
    (v : Visitor Cow O) (md : Metadata) (st : Parser β) :
    MendedOk v (Sound.recordImpl q v md st : Out β O).res
      (match (mendedBody md.ty : Ideal (Record List)) { g.input with cfg := g.cfg.withMisc md.misc } with
        | .error e => .error e.inRecord
        | .ok (rec, _) => .ok (rec, md)) ∧
    (Sound.recordImpl q v md st : Out β O).st = st := by
  have hm := Mends.body md.ty (β := Tracking γ) _ { g.input with cfg := g.cfg.withMisc md.misc } g.s.al (hq.withMisc h0 md.misc)
  unfold Sound.recordImpl
  rcases hd : (mendedBody md.ty : Mend (Tracking γ) (Record Cow)) (Parser.new q.data (q.config.withMisc md.misc)) with ⟨res, q', l⟩
  rw [hd] at hm
  rcases hs : (mendedBody md.ty : Ideal (Record List)) { g.input with cfg := g.cfg.withMisc md.misc } with e | ⟨rec, i'⟩
  · rw [show (mendedBody md.ty : Ideal (Record List)) _ = _ from hs] at hm
    cases (show res = _ from hm)
    rw [P.bind_err (Sound.checked_err (P.onChild_err hd st))]
    exact ⟨rfl, rfl⟩
  · rw [show (mendedBody md.ty : Ideal (Record List)) _ = _ from hs] at hm
    obtain ⟨a, al, h1, h2, _⟩ := hm
    cases (show res = _ from h1)
    rw [P.bind_ok (Sound.checked_ok (P.onChild_ok hd st))]
    refine ⟨⟨a, h2, rfl⟩, ?_⟩
    show (P.ofExcept (v.apply a md) st).st = st
    unfold P.ofExcept
    cases v.apply a md <;> rfl

theorem Sound.recordWithHeader_run {p : Parser β} {f : Flat} (hp : RepP p f) (v : Visitor Cow O) (h : Header) :
    MendedOk v (Sound.recordWithHeader v h p : Out β O).res
      (within (h.size.toNat - 8 ≤ f.s.bytes.length) (Ideal.recordWithHeader h f.input)) ∧
    (h.size.toNat - 8 ≤ f.s.bytes.length → RepP (Sound.recordWithHeader v h p : Out β O).st (f.adv (h.size.toNat - 8))) := by
  obtain ⟨hm, hst⟩ := Mend.metadata_run hp h
  have hst : h.size.toNat - 8 ≤ f.s.bytes.length →
      RepP (Mend.metadataWithHeader h p : Out β (Parser Cursor × Metadata)).st (f.adv (h.size.toNat - 8)) := by
    intro hl
    by_cases h8 : 8 ≤ h.size.toNat
    · exact hst h8 hl
    · unfold Mend.metadataWithHeader
      rw [P.ite_pos (by omega), show h.size.toNat - 8 = 0 by omega, Flat.adv_zero]
      exact hp
  unfold Sound.recordWithHeader Ideal.recordWithHeader
  rcases hf : Ideal.frame h f.input with e | ⟨r, md⟩
  · rw [hf] at hm
    rw [P.bind_err (P.run_eq _ hm)]
    refine ⟨?_, hst⟩
    show Except.error (Fault.err e) = .error (.err (if _ then e.inRecord else e))
    split
    · rename_i hl
      rw [ParseError.inRecord_of (Ideal.frame_whole hl hf)]
    · rfl
  · rw [hf] at hm
    have hl : h.size.toNat - 8 ≤ f.s.bytes.length := by
      unfold Ideal.frame at hf
      split at hf
      · cases hf
      split at hf
      · cases hf
      rename_i hl
      exact Nat.not_lt.mp hl
    obtain ⟨c, g, hc, hreg, hg, _⟩ := hm
    subst hg
    rw [P.bind_ok (P.run_eq _ hc)]
    simp only
    cases has : c.data.buf.asSlice with
    | some s =>
      obtain ⟨a1, a2⟩ := Sound.recordImpl_run (hreg.asSlice has).1 hreg.zero v md
        (Mend.metadataWithHeader h p : Out β (Parser Cursor × Metadata)).st
      refine ⟨MendedOk.within hl _ a1, fun hl => ?_⟩
      rw [a2]; exact hst hl
    | none =>
      obtain ⟨a1, a2⟩ := Sound.recordImpl_run hreg.rep hreg.zero v md
        (Mend.metadataWithHeader h p : Out β (Parser Cursor × Metadata)).st
      refine ⟨MendedOk.within hl _ a1, fun hl => ?_⟩
      rw [a2]; exact hst hl

/-- The record at the front of the input is all there. -/
def WholeAt (f : Flat) : Prop := 8 ≤ f.s.bytes.length ∧ (headerAt f).size.toNat ≤ f.s.bytes.length

instance (f : Flat) : Decidable (WholeAt f) := by unfold WholeAt; infer_instance

theorem Sound.record_run {p : Parser β} {f : Flat} (hp : RepP p f) (v : Visitor Cow O) :
    MendedOk v (Sound.record v p : Out β O).res (within (WholeAt f) (Ideal.record f.input)) ∧
    (WholeAt f → ∃ al, RepP (Sound.record v p : Out β O).st ((f.input.adv (max 8 (headerAt f).size.toNat)).flat al)) := by
  have hm := Mends.header (β := β) p f.input f.s.al hp
  unfold Sound.record Ideal.record
  rcases Nat.lt_or_ge f.s.bytes.length 8 with h8 | h8
  · have hn : ¬ WholeAt f := fun h => absurd h.1 (by omega)
    rw [Ideal.header_short h8] at hm
    rw [P.bind_err (m := ((parseHeader : Mend β Header) : P β Header)) (P.run_eq _ hm), Ideal.header_short h8]
    refine ⟨?_, fun h => absurd h hn⟩
    show Except.error _ = Except.error (Fault.err (if _ then _ else _))
    rw [if_neg hn]
  · rw [Ideal.header_eq h8] at hm
    obtain ⟨a, al, h1, h2, h3⟩ := hm
    subst h2
    rw [P.bind_ok (m := ((parseHeader : Mend β Header) : P β Header)) (P.run_eq _ h1), Ideal.header_eq h8]
    obtain ⟨h4, h5⟩ := Sound.recordWithHeader_run h3 v (headerAt f)
    have hw : (headerAt f).size.toNat - 8 ≤ ((f.adv 8).input.flat al).s.bytes.length ↔ WholeAt f := by
      show _ ≤ (f.s.bytes.drop 8).length ↔ 8 ≤ f.s.bytes.length ∧ _
      rw [List.length_drop]
      omega
    refine ⟨?_, fun hx => ?_⟩
    · have : within ((headerAt f).size.toNat - 8 ≤ ((f.adv 8).input.flat al).s.bytes.length)
          (Ideal.recordWithHeader (headerAt f) (f.adv 8).input) = within (WholeAt f) (Ideal.recordWithHeader (headerAt f) (f.adv 8).input) := by
        rcases Ideal.recordWithHeader (headerAt f) (f.adv 8).input with e | x
        · refine congrArg Except.error ?_
          by_cases hx : WholeAt f
          · rw [if_pos hx, if_pos (hw.mpr hx)]
          · rw [if_neg hx, if_neg (fun h => hx (hw.mp h))]
        · rfl
      exact this ▸ h4
    · refine ⟨al.add ((headerAt f).size.toNat - 8), ?_⟩
      have := h5 (hw.mpr hx)
      rw [Input.flat_adv, Flat.input_adv, Input.adv_adv] at this
      rw [show max 8 (headerAt f).size.toNat = 8 + ((headerAt f).size.toNat - 8) by omega]
      exact this

/-! ## C45 and C73: `Eof` means the end of the input -/

/-- A visitor that does not itself make up an `Eof` (a visitor cannot fail, it can only panic). -/
def Visitor.NoEof (v : Visitor Cow O) : Prop := ∀ (r : Record Cow) (md : Metadata), endsLoop (v.apply r md) = false

/-- **C89** C45 without exceptions: `Eof` if and only if the input ends (with an `Eof`) before the record does. -/
theorem c89_eof {p : Parser β} {f : Flat} (hp : RepP p f) (v : Visitor Cow O) (hv : v.NoEof) :
    endsLoop (Sound.record v p).res = true ↔ ¬ WholeAt f ∧ f.s.fin.kind = .eof := by
  have h := (Sound.record_run hp v).1
  by_cases hw : WholeAt f
  · refine ⟨fun he => ?_, fun he => absurd hw he.1⟩
    rcases hr : Ideal.record f.input with e | ⟨rec, md⟩
    · rw [hr] at h
      have h : (Sound.record v p).res = .error (.err (if WholeAt f then e.inRecord else e)) := h
      rw [h, if_pos hw] at he
      exact absurd (eq_of_beq (show (e.inRecord.kind == .eof) = true from he)) e.inRecord_eof
    · rw [hr] at h
      obtain ⟨a, _, h⟩ := h
      rw [h, hv] at he
      cases he
  · have hi : Ideal.record f.input = .error f.s.fin := by
      unfold Ideal.record
      rcases Nat.lt_or_ge f.s.bytes.length 8 with h8 | h8
      · rw [Ideal.header_short h8]
      · rw [Ideal.header_eq h8]
        have hs : f.s.bytes.length < (headerAt f).size.toNat := by
          unfold WholeAt at hw
          omega
        show Ideal.recordWithHeader (headerAt f) (f.adv 8).input = _
        unfold Ideal.recordWithHeader Ideal.frame
        rw [if_neg (by omega), if_pos (by
          show (f.s.bytes.drop 8).length < _
          rw [List.length_drop]; omega)]
        rfl
    rw [hi] at h
    have h : (Sound.record v p).res = .error (.err (if WholeAt f then f.s.fin.inRecord else f.s.fin)) := h
    rw [h, if_neg hw]
    show (f.s.fin.kind == .eof) = true ↔ _
    rw [beq_iff_eq]
    exact ⟨fun x => ⟨hw, x⟩, fun x => x.2⟩

/-- **C89** Nothing else is changed by it: compared with C84 only the error differs, and only for a record that is all there and whose
contents do not fit into it. -/
theorem c89_same {p : Parser β} {f : Flat} (hp : RepP p f) (v : Visitor Cow O) :
    SameOutcome v (Sound.record v p).res (Mend.record v p).res ∨
    (WholeAt f ∧ ∃ e : ParseError, e.kind = .eof ∧ (Mend.record v p).res = .error (.err e) ∧
      (Sound.record v p).res = .error (.err (.custom .invalidRecord "the record ends before its contents do"))) := by
  have h := (Sound.record_run hp v).1
  have h' := (Mend.record_run hp v).1
  rcases hr : Ideal.record f.input with e | ⟨rec, md⟩ <;> rw [hr] at h h'
  · have h : (Sound.record v p).res = .error (.err (if WholeAt f then e.inRecord else e)) := h
    have h' : (Mend.record v p).res = .error (.err e) := h'
    by_cases hw : WholeAt f
    · rw [if_pos hw] at h
      by_cases hk : e.kind = .eof
      · unfold ParseError.inRecord at h
        rw [if_pos hk] at h
        exact .inr ⟨hw, e, hk, h', h⟩
      · rw [ParseError.inRecord_of hk] at h
        exact .inl (.inl ⟨e, h, h'⟩)
    · rw [if_neg hw] at h
      exact .inl (.inl ⟨e, h, h'⟩)
  · exact .inl (h.same h')

end

/-- A loop that stops at the first `Eof`, at most `n` times round, with any visitor. Nothing if it is not over by then. -/
def Sound.untilEof [ParseBuf β] (v : Visitor Cow O) : Nat → Parser β → Option (List (Except Fault O))
  | 0, _ => none
  | n + 1, p =>
    if endsLoop (Sound.record v p).res then some []
    else (Sound.untilEof v n (Sound.record v p).st).map ((Sound.record v p).res :: ·)

/-- A block that is a whole record, according to its header. -/
def wholeBlock (cfg : ParseConfig) (b : List Byte) : Bool := decide (8 ≤ b.length ∧ sizeField cfg b ≤ b.length)

/-- The outcome for each whole record in the input, taken by itself. -/
def recordsIn (cfg : ParseConfig) (bs : List Byte) : List (Except ParseError (Record List × Metadata)) :=
  ((cut cfg bs).filter (wholeBlock cfg)).map fun b => within True (Ideal.record ⟨b, .eof, 0, cfg⟩)

/-- The results are what the visitor makes of these outcomes, in order. -/
def AllOk (v : Visitor Cow O) : List (Except Fault O) → List (Except ParseError (Record List × Metadata)) → Prop
  | [], [] => True
  | x :: xs, y :: ys => MendedOk v x y ∧ AllOk v xs ys
  | _, _ => False

/-- A record that is all there means the same by itself. -/
theorem Ideal.record_block {f : Flat} (hw : WholeAt f) :
    Ideal.record ⟨f.s.bytes.take (firstLen f.cfg f.s.bytes), .eof, 0, f.cfg⟩ = Ideal.record f.input := by
  obtain ⟨h8, hs⟩ := hw
  have hl : firstLen f.cfg f.s.bytes = max 8 (headerAt f).size.toNat := by
    unfold firstLen
    rw [show sizeField f.cfg f.s.bytes = (headerAt f).size.toNat from rfl]
    omega
  rw [hl]
  let g : Flat := ⟨⟨f.s.bytes.take (max 8 (headerAt f).size.toNat), f.s.al, .eof⟩, 0, f.cfg⟩
  have hg8 : 8 ≤ g.s.bytes.length := by
    show 8 ≤ (f.s.bytes.take _).length
    rw [List.length_take]; omega
  have hh : headerAt g = headerAt f := by
    have e1 : g.s.bytes.take 4 = f.s.bytes.take 4 := by
      show (f.s.bytes.take _).take 4 = _
      rw [List.take_take, Nat.min_eq_left (by omega)]
    have e2 : (g.s.bytes.drop 4).take 2 = (f.s.bytes.drop 4).take 2 := by
      show ((f.s.bytes.take _).drop 4).take 2 = _
      rw [List.drop_take, List.take_take, Nat.min_eq_left (by omega)]
    have e3 : (g.s.bytes.drop 6).take 2 = (f.s.bytes.drop 6).take 2 := by
      show ((f.s.bytes.take _).drop 6).take 2 = _
      rw [List.drop_take, List.take_take, Nat.min_eq_left (by omega)]
    unfold headerAt
    rw [e1, e2, e3]
  show Ideal.record g.input = _
  unfold Ideal.record
  rw [Ideal.header_eq h8, Ideal.header_eq hg8, hh]
  show Ideal.recordWithHeader (headerAt f) (g.adv 8).input = Ideal.recordWithHeader (headerAt f) (f.adv 8).input
  have hr : ∀ n, n ≤ (headerAt f).size.toNat - 8 → Ideal.region (g.adv 8).input n = Ideal.region (f.adv 8).input n := by
    intro n hn
    show (⟨((f.s.bytes.take _).drop 8).take n, _, _, _⟩ : Input) = ⟨(f.s.bytes.drop 8).take n, _, _, _⟩
    rw [List.drop_take, List.take_take, Nat.min_eq_left (by omega)]
    rfl
  have hframe : Ideal.frame (headerAt f) (g.adv 8).input = Ideal.frame (headerAt f) (f.adv 8).input := by
    unfold Ideal.frame
    rw [hr _ (Nat.le_refl _), hr _ (Nat.sub_le _ _)]
    by_cases hsz : (headerAt f).size.toNat < 8
    · rw [if_pos hsz, if_pos hsz]
    have n1 : ¬ (g.adv 8).input.bytes.length < (headerAt f).size.toNat - 8 := by
      show ¬ ((f.s.bytes.take _).drop 8).length < _
      rw [List.length_drop, List.length_take]; omega
    have n2 : ¬ (f.adv 8).input.bytes.length < (headerAt f).size.toNat - 8 := by
      show ¬ (f.s.bytes.drop 8).length < _
      rw [List.length_drop]; omega
    rw [if_neg hsz, if_neg hsz, if_neg n1, if_neg n2]
    rfl
  unfold Ideal.recordWithHeader
  rw [hframe]

section
variable [ParseBuf β] [Lawful β]

/-- **C89** C73 without exceptions, for every input, damaged or not: a loop that stops at `Eof` comes to an end, and has then seen every
whole record of the input, in order, each as if it were alone; those that cannot be read are errors, and the loop goes on behind them. -/
theorem c89_loop {p : Parser β} {f : Flat} (hp : RepP p f) (hf : f.s.fin.kind = .eof) (v : Visitor Cow O) (hv : v.NoEof) :
    ∃ l, Sound.untilEof v ((f.s.bytes.length + 7) / 8 + 1) p = some l ∧ AllOk v l (recordsIn f.cfg f.s.bytes) := by
  suffices H : ∀ (n : Nat) (p : Parser β) (f : Flat), RepP p f → f.s.fin.kind = .eof → (cut f.cfg f.s.bytes).length < n →
      ∃ l, Sound.untilEof v n p = some l ∧ AllOk v l (recordsIn f.cfg f.s.bytes) from
    H _ p f hp hf (Nat.lt_succ_of_le (c73_blocks f.cfg f.s.bytes).2.2.1)
  intro n
  induction n with
  | zero => intro _ _ _ _ h; omega
  | succ n ih =>
    intro p f hp hf hn
    have hend := c89_eof hp v hv
    unfold Sound.untilEof
    by_cases hw : WholeAt f
    · have he : endsLoop (Sound.record v p).res = false := by
        rw [← Bool.not_eq_true, hend]
        exact fun h => h.1 hw
      obtain ⟨h1, h2⟩ := Sound.record_run hp v
      obtain ⟨al, h3⟩ := h2 hw
      have hl : firstLen f.cfg f.s.bytes = max 8 (headerAt f).size.toNat := by
        have := hw.1
        have := hw.2
        unfold firstLen
        rw [show sizeField f.cfg f.s.bytes = (headerAt f).size.toNat from rfl]
        omega
      rw [← hl] at h3
      have hne : f.s.bytes ≠ [] := fun h => by
        have := hw.1
        rw [h] at this
        exact absurd this (by decide)
      rw [cut_cons f.cfg hne, List.length_cons] at hn
      obtain ⟨l, h4, h5⟩ := ih _ _ h3 hf (by
        show (cut f.cfg (f.s.bytes.drop _)).length < n
        omega)
      have hwb : wholeBlock f.cfg (f.s.bytes.take (firstLen f.cfg f.s.bytes)) = true := by
        have h8 := hw.1
        have hs := hw.2
        have e : sizeField f.cfg (f.s.bytes.take (firstLen f.cfg f.s.bytes)) = (headerAt f).size.toNat := by
          unfold sizeField
          rw [List.drop_take, List.take_take, Nat.min_eq_left (by omega)]
          rfl
        unfold wholeBlock
        rw [e, List.length_take, decide_eq_true_eq]
        omega
      refine ⟨(Sound.record v p).res :: l, ?_, ?_⟩
      · rw [he, if_neg (by decide), h4]
        rfl
      · have : recordsIn f.cfg f.s.bytes =
            within True (Ideal.record f.input) :: recordsIn f.cfg (f.s.bytes.drop (firstLen f.cfg f.s.bytes)) := by
          unfold recordsIn
          rw [cut_cons f.cfg hne, List.filter_cons_of_pos hwb, List.map_cons, Ideal.record_block hw]
        rw [this]
        refine ⟨?_, h5⟩
        rcases hr : Ideal.record f.input with e | x <;> rw [hr] at h1
        · have h1 : (Sound.record v p).res = .error (.err (if WholeAt f then e.inRecord else e)) := h1
          rw [if_pos hw] at h1
          exact h1
        · exact h1
    · have he : endsLoop (Sound.record v p).res = true := hend.mpr ⟨hw, hf⟩
      refine ⟨[], if_pos he, ?_⟩
      have : recordsIn f.cfg f.s.bytes = [] := by
        unfold recordsIn
        by_cases hne : f.s.bytes = []
        · rw [hne]; rfl
        · have hl : firstLen f.cfg f.s.bytes = f.s.bytes.length := by
            unfold firstLen
            rw [show sizeField f.cfg f.s.bytes = (headerAt f).size.toNat from rfl]
            unfold WholeAt at hw
            omega
          rw [cut_cons f.cfg hne, hl, List.drop_length, cut_nil, List.take_length, List.filter_cons_of_neg ?_]
          · rfl
          · unfold wholeBlock
            rw [decide_eq_true_eq]
            exact hw
      rw [this]
      trivial

/-- **C89** What the kernel writes, SWITCH records and all, is delivered by such a loop without exception. -/
theorem c89_kernel {o : Order} {p : Parser β} {f : Flat} (hp : RepP p f) (hf : f.s.fin.kind = .eof) (hs : Src f.cfg o) (rs : List KRecord)
    (hok : ∀ r ∈ rs, r.body.Written f.cfg r.misc ∧ r.sizeAll o f.cfg < 65536)
    (hb : f.s.bytes = rs.flatMap (KRecord.encAll o f.cfg)) (v : Visitor Cow O) (hv : v.NoEof) :
    ∃ l, Sound.untilEof v (rs.length + 1) p = some l ∧ DeliversAll v f.cfg l rs := by
  induction rs generalizing p f with
  | nil =>
    refine ⟨[], if_pos ((c89_eof hp v hv).mpr ⟨fun h => ?_, hf⟩), trivial⟩
    have := h.1
    rw [hb] at this
    exact absurd (show 8 ≤ 0 from this) (by decide)
  | cons r rs ih =>
    have hb : f.s.bytes = r.encAll o f.cfg ++ rs.flatMap (KRecord.encAll o f.cfg) := hb
    obtain ⟨hw, hsize⟩ := hok r (List.mem_cons_self ..)
    have hh := headerAt_encAll hs r hb
    have hsz : (headerAt f).size.toNat = r.sizeAll o f.cfg := by rw [hh]; exact toNat_ofNat_lt hsize
    have hlen : f.s.bytes.length = r.sizeAll o f.cfg + (rs.flatMap (KRecord.encAll o f.cfg)).length := by
      rw [hb, List.length_append, KRecord.encAll_length]
    have h8 : 8 ≤ r.sizeAll o f.cfg := by unfold KRecord.sizeAll; omega
    have hwh : WholeAt f := ⟨by omega, by omega⟩
    obtain ⟨h1, h2⟩ := Sound.record_run hp v
    rw [Ideal.record_enc hs r hw hsize hb] at h1
    obtain ⟨al, h3⟩ := h2 hwh
    rw [hsz, Nat.max_eq_right h8] at h3
    have he : endsLoop (Sound.record v p).res = false := by
      rw [← Bool.not_eq_true, c89_eof hp v hv]
      exact fun h => h.1 hwh
    obtain ⟨l, h4, h5⟩ := ih h3 hf hs (fun x hx => hok x (List.mem_cons_of_mem _ hx)) (by
      show f.s.bytes.drop _ = _
      rw [hb, ← KRecord.encAll_length, List.drop_left]
      rfl)
    refine ⟨(Sound.record v p).res :: l, ?_, h1, h5⟩
    unfold Sound.untilEof
    rw [he, if_neg (by decide), List.length_cons, h4]
    rfl

end

/-! ## C35: the hint -/

theorem TrueCursor.slowLoop_left : ∀ (cs cs' : List Chunk) (off off' : Nat), Cursor.slowLoop cs off = (cs', off') →
    chunkBytes cs + off' = chunkBytes cs' + off := by
  intro cs
  induction cs with
  | nil =>
    intro cs' off off' h
    cases h
    rfl
  | cons c cs ih =>
    intro cs' off off' h
    unfold Cursor.slowLoop at h
    split at h
    · cases h
      rfl
    · have := ih _ _ _ h
      simp only [chunkBytes]
      omega

/-- The bytes the cursor has not passed. -/
def TrueCursor.left (t : TrueCursor) : List Byte := (chunksData t.cur.chunks).drop t.cur.offset

theorem Cursor.advance_left {c c' : Cursor} {n : Nat} (h : c.advance n = some c') :
    chunkBytes c.chunks + c'.offset = chunkBytes c'.chunks + (c.offset + n) ∧ n ≤ c.len := by
  have slow : ∀ d d' : Cursor, d.advanceSlow = some d' → chunkBytes d.chunks + d'.offset = chunkBytes d'.chunks + d.offset := by
    intro d d' hd
    unfold Cursor.advanceSlow at hd
    split at hd
    · rename_i off heq
      split at hd
      · cases hd
        exact TrueCursor.slowLoop_left _ _ _ _ heq
      · cases hd
    · rename_i x xs off heq
      cases hd
      exact TrueCursor.slowLoop_left _ _ _ _ heq
  unfold Cursor.advance at h
  split at h
  · cases h
  · split at h
    · cases h
    · rename_i hl
      refine ⟨?_, by omega⟩
      simp only at h
      split at h
      · split at h
        · cases h; rfl
        · exact slow ⟨c.chunks, c.offset + n, c.len⟩ _ h
      · exact slow ⟨c.chunks, c.offset + n, c.len⟩ _ h

/-- **C89** C35 for cursors: whatever has been done with the parser of a region, its hint is the number of bytes left in it. -/
theorem c89_cursor [ParseBuf β] [Lawful β] {p : Parser β} {f : Flat} (hp : RepP p f) (n : Nat) (hlim : n < usizeLimit) {c : Parser Cursor}
    (h : (P.splitAt n p).res = .ok c) {t : TrueCursor} (hr : Reach (TrueCursor.mk c.data.buf) t) :
    ParseBuf.hint t = some t.left.length := by
  have hs := (P.splitAt_takes hp hlim).1
  by_cases hle : n ≤ f.s.bytes.length
  · rw [if_pos hle] at hs
    obtain ⟨d, h1, h2, _⟩ := hs
    rw [h] at h1
    cases h1
    have hb : chunkBytes c.data.buf.chunks = n := by
      rw [← chunksData_length, h2.pieces.data, List.length_take]
      omega
    have key : ∀ b b' : TrueCursor, Reach b b' → b.cur.len + b.cur.offset = chunkBytes b.cur.chunks →
        b'.cur.len + b'.cur.offset = chunkBytes b'.cur.chunks := by
      intro b b' hr h0
      induction hr with
      | refl => exact h0
      | chunk _ ih => exact ih
      | advance _ ha ih =>
        rename_i b1 b2 k _
        have ha : (b1.cur.advance k).map (fun c => (⟨{ c with len := b1.cur.len - k }⟩ : TrueCursor)) = some b2 := ha
        rcases hx : b1.cur.advance k with _ | x <;> rw [hx] at ha
        · cases ha
        · cases ha
          have := Cursor.advance_left hx
          show b1.cur.len - k + x.offset = chunkBytes x.chunks
          omega
    have hk := key _ _ hr (by
      show c.data.buf.len + c.data.buf.offset = _
      rw [hb, h2.length]
      have := h2.offset
      omega)
    show some t.cur.len = some _
    unfold TrueCursor.left
    rw [List.length_drop, chunksData_length]
    congr 1
    omega
  · rw [if_neg hle, h] at hs
    cases hs

/-- The corrected cursor stands for a stream as the original does, and its length field is exact. -/
structure TrueCursor.Rep (t : TrueCursor) (s : Stream) : Prop where
  bytes : s.bytes = t.left
  fin : s.fin = .eof
  nonempty : ∀ d ∈ t.cur.chunks, d.data ≠ []
  inside : match t.cur.chunks with
    | [] => t.cur.offset = 0
    | d :: _ => t.cur.offset < d.data.length
  exact : t.cur.len + t.cur.offset = chunkBytes t.cur.chunks
  limit : chunkBytes t.cur.chunks < usizeLimit
  al : ∃ a, s.al = a.add t.cur.offset ∧ ChunksAl a t.cur.chunks

theorem TrueCursor.Rep.cursor {t : TrueCursor} {s : Stream} (h : t.Rep s) :
    Cursor.Rep ⟨t.cur.chunks, t.cur.offset, chunkBytes t.cur.chunks⟩ s :=
  ⟨h.bytes, h.fin, h.nonempty, h.inside, Nat.le_refl _, h.limit, h.al⟩

instance : LawfulEof TrueCursor where
  Rep := TrueCursor.Rep
  chunk_law := by
    rintro t s h
    have hl := Lawful.chunk_law (⟨t.cur.chunks, t.cur.offset, chunkBytes t.cur.chunks⟩ : Cursor) s h.cursor
    have hc : (ParseBuf.chunk t).1 = (ParseBuf.chunk (⟨t.cur.chunks, t.cur.offset, chunkBytes t.cur.chunks⟩ : Cursor)).1 := rfl
    have hs : (ParseBuf.chunk t).2 = t := rfl
    have hs' : (ParseBuf.chunk (⟨t.cur.chunks, t.cur.offset, chunkBytes t.cur.chunks⟩ : Cursor)).2 =
      ⟨t.cur.chunks, t.cur.offset, chunkBytes t.cur.chunks⟩ := rfl
    rcases hx : ParseBuf.chunk (⟨t.cur.chunks, t.cur.offset, chunkBytes t.cur.chunks⟩ : Cursor) with ⟨r, c⟩
    rcases hy : ParseBuf.chunk t with ⟨r', c'⟩
    rw [hx] at hl hc hs'
    rw [hy] at hc hs
    cases hc
    have hs := hs.symm
    subst hs
    cases hs'
    rcases r with (e | _ | _) | ch
    · exact hl
    · exact hl
    · exact hl
    obtain ⟨h1, h2, h3, -, -, -, h4⟩ := hl
    refine ⟨h1, h2, h3, h, Nat.le_refl _, rfl, fun k hk => ?_⟩
    obtain ⟨c', h5, h6, h7, -⟩ := h4 k hk
    have h5 : Cursor.advance ⟨t.cur.chunks, t.cur.offset, chunkBytes t.cur.chunks⟩ k = some c' := h5
    have hle := Cursor.advance_left h5
    have hkl : k ≤ t.cur.len := by
      have : ch.data.length ≤ s.bytes.length := h2.length_le
      rw [h.bytes] at this
      unfold TrueCursor.left at this
      rw [List.length_drop, chunksData_length, ← h.exact] at this
      omega
    have h8 : t.cur.advance k = some { c' with len := t.cur.len } := by
      have hlen := (Cursor.advance_bytes h5).2
      unfold Cursor.advance at h5 ⊢
      by_cases g1 : t.cur.offset + k ≥ usizeLimit
      · rw [if_pos g1] at h5
        cases h5
      rw [if_neg g1] at h5 ⊢
      rw [if_neg (by omega)] at h5 ⊢
      simp only at h5 ⊢
      have slow : Cursor.advanceSlow ⟨t.cur.chunks, t.cur.offset + k, chunkBytes t.cur.chunks⟩ = some c' →
          Cursor.advanceSlow ⟨t.cur.chunks, t.cur.offset + k, t.cur.len⟩ = some { c' with len := t.cur.len } := by
        intro hs
        unfold Cursor.advanceSlow at hs ⊢
        simp only at hs ⊢
        split at hs
        · rename_i off heq
          split at hs
          · rename_i h0
            cases hs
            rw [if_pos h0]
          · cases hs
        · cases hs
          rfl
      cases hcs : t.cur.chunks with
      | nil =>
        rw [hcs] at h5 slow
        exact slow h5
      | cons d ds =>
        rw [hcs] at h5 slow
        simp only at h5 ⊢
        by_cases g2 : d.data.length > t.cur.offset + k
        · rw [if_pos g2] at h5 ⊢
          cases h5
          rfl
        · rw [if_neg g2] at h5 ⊢
          exact slow h5
    refine ⟨⟨{ c' with len := t.cur.len - k }⟩, ?_, ?_, ?_, ?_⟩
    · show TrueCursor.advance t k = _
      unfold TrueCursor.advance
      rw [h8]
      rfl
    · have := Cursor.advance_bytes h5
      refine ⟨h6.bytes, h6.fin, h6.nonempty, h6.inside, ?_, Nat.lt_of_le_of_lt this.1 h.limit, h6.al⟩
      have := h.exact
      show t.cur.len - k + c'.offset = chunkBytes c'.chunks
      have h9 : chunkBytes t.cur.chunks + c'.offset = chunkBytes c'.chunks + (t.cur.offset + k) := hle.1
      omega
    · exact h7
    · intro B hB x hx
      have := hB t.cur.len rfl
      cases hx
      show t.cur.len - k ≤ B
      omega
  eof_law _ _ h _ _ := ⟨h, rfl⟩

/-- **C89** The corrected cursor keeps the whole contract of `ParseBuf`, the `# Safety` clause included; so everything that is proved for
lawful buffers holds of it (the instance above), with an exact hint. -/
theorem c89_hint {t : TrueCursor} {s : Stream} (h : Lawful.Rep t s) : ParseBuf.hint t = some s.bytes.length := by
  have h : t.Rep s := h
  have := h.exact
  show some t.cur.len = _
  rw [h.bytes]
  unfold TrueCursor.left
  rw [List.length_drop, chunksData_length]
  congr 1
  omega

/-- Three of four bytes consumed: one is left, and the hint says so (cf. `c35_cursor_false`). -/
example : ((TrueCursor.mk ⟨[⟨.external 0, [1, 2]⟩, ⟨.temporary, [3, 4]⟩], 0, 4⟩).advance 3).map (fun t => (ParseBuf.hint t, t.left)) =
    some (some 1, [4]) := by decide

/-! ## C59: branch entries -/

theorem KBranch.rearranged_word (host : Order) (b : KBranch) :
    BranchEntry.rearranged host (b.word host.opposite) = ({ b with rest := 0#40 } : KBranch).word host := by
  have hw := b.word_toNat host.opposite
  have h1 := b.cycles.isLt
  have h2 := b.ty.isLt
  have h3 := b.rest.isLt
  have h4 := b.mispred.toNat_le
  have h5 := b.predicted.toNat_le
  have h6 := b.inTx.toNat_le
  have h7 := b.abort.toNat_le
  have e0 : (bitfield host.opposite (b.word host.opposite) 0 1).toNat = b.mispred.toNat := by
    rw [bitfield_toNat _ _ _ _ (by omega) (by omega), hw]
    cases host <;> simp only [Order.opposite] <;> omega
  have e1 : (bitfield host.opposite (b.word host.opposite) 1 1).toNat = b.predicted.toNat := by
    rw [bitfield_toNat _ _ _ _ (by omega) (by omega), hw]
    cases host <;> simp only [Order.opposite] <;> omega
  have e2 : (bitfield host.opposite (b.word host.opposite) 2 1).toNat = b.inTx.toNat := by
    rw [bitfield_toNat _ _ _ _ (by omega) (by omega), hw]
    cases host <;> simp only [Order.opposite] <;> omega
  have e3 : (bitfield host.opposite (b.word host.opposite) 3 1).toNat = b.abort.toNat := by
    rw [bitfield_toNat _ _ _ _ (by omega) (by omega), hw]
    cases host <;> simp only [Order.opposite] <;> omega
  have e4 : (bitfield host.opposite (b.word host.opposite) 4 16).toNat = b.cycles.toNat := by
    rw [bitfield_toNat _ _ _ _ (by omega) (by omega), hw]
    cases host <;> simp only [Order.opposite] <;> omega
  have e5 : (bitfield host.opposite (b.word host.opposite) 20 4).toNat = b.ty.toNat := by
    rw [bitfield_toNat _ _ _ _ (by omega) (by omega), hw]
    cases host <;> simp only [Order.opposite] <;> omega
  unfold BranchEntry.rearranged KBranch.word
  unfold KBranch.word at e0 e1 e2 e3 e4 e5
  simp only [e0, e1, e2, e3, e4, e5]
  congr 1

/-- What the corrected entry shows. -/
theorem KBranch.mended (e : Endian) (host o : Order) (he : Honest e host o) (b : KBranch) :
    b.Shows host (BranchEntry.mended e host ⟨b.from_, b.to, b.word o⟩) := by
  unfold Honest at he
  unfold BranchEntry.mended
  by_cases h : o = host
  · subst h
    rw [he, if_pos (by rw [decide_eq_true_eq])]
    exact b.shows o
  · have ho : o = host.opposite := by
      cases o <;> cases host <;> first
        | rfl
        | exact absurd rfl h
    rw [he, if_neg (by rw [decide_eq_true_eq]; exact h), ho]
    simp only
    rw [KBranch.rearranged_word]
    obtain ⟨a1, a2, a3, a4, a5, a6, a7, a8⟩ := ({ b with rest := 0#40 } : KBranch).shows host
    exact ⟨a1, a2, a3, a4, a5, a6, a7, a8⟩

/-- **C89** C59 without exceptions: the branches of a sample written by a kernel of either byte order are reported as they were, on a host
of either byte order. -/
theorem c89_branch [ParseBuf β] [Lawful β] {o : Order} {p : Parser β} {f : Flat} {tl : List Byte} (hp : RepP p f) (hs : Src f.cfg o)
    (misc : U16) (t : KTrailer) (s : KSample)
    (bs : List KBranch) (hbs : s.lbr = bs.map fun b => ⟨b.from_, b.to, b.word o⟩) (hf : f.cfg.sampleType.getLsbD 11 = true)
    (hw : (KBody.sample s).Written f.cfg misc) (hsize : (KRecord.mk misc (.sample s) t).sizeAll o f.cfg < 65536)
    (hb : f.s.bytes = (KRecord.mk misc (.sample s) t).encAll o f.cfg ++ tl) (e : Endian) (host : Order) (he : Honest e host o) :
    ∃ (a : Sample Cow) (md : Metadata) (l : Cow BranchEntry), (Mend.record pairVisitor p).res = .ok (.sample a, md) ∧ a.lbr = some l ∧
      l.data.length = bs.length ∧
      ∀ i (h : i < bs.length) (h' : i < l.data.length), bs[i].Shows host (l.data[i].mended e host) := by
  obtain ⟨a, h1, h2⟩ := (c84_round_trip hp hs (KRecord.mk misc (.sample s) t) hw hsize hb pairVisitor).1
  cases a with
  | sample a =>
    have hl : a.lbr.map Cow.data = some s.lbr := by
      have : a.view = s.value f.cfg.sampleType f.cfg.readFormat f.cfg.regsUser f.cfg.regsIntr f.cfg.branchHwIndex := by
        injection h1
      have := congrArg Sample.lbr this
      simp only [Sample.view, KSample.value, hf, optv] at this
      exact this
    cases hal : a.lbr with
    | none => rw [hal] at hl; cases hl
    | some l =>
      rw [hal] at hl
      have hl' : l.data = s.lbr := Option.some.inj hl
      refine ⟨a, _, l, h2, hal, by rw [hl', hbs, List.length_map], fun i h h' => ?_⟩
      have : l.data[i] = ⟨bs[i].from_, bs[i].to, bs[i].word o⟩ := by
        simp only [hl', hbs, List.getElem_map]
      rw [this]
      exact bs[i].mended e host o he
  | _ => cases h1

/-! ## C14, C43, C46 -/

/-- **C89** C14, accessors: `uts` too is the entry at the kernel's index. -/
theorem c89_uts (ns : Namespaces Cow) : ns.mendedUts = ns.namespaces.data[Ns.uts.index]? := rfl

/-- **C89** C43 without exceptions: a build id is printed in hexadecimal. -/
theorem c89_hex (bs : List Byte) : IsHex bs (mendedHexStr bs) := by
  induction bs with
  | nil => rfl
  | cons b bs ih =>
    have h1 : (b &&& 0xf#8).toNat = b.toNat % 16 := by
      rw [BitVec.toNat_and]
      exact Nat.and_two_pow_sub_one_eq_mod _ 4
    have h2 : (b >>> 4).toNat = b.toNat / 16 := by
      rw [BitVec.toNat_ushiftRight, Nat.shiftRight_eq_div_pow]
    show IsHex (b :: bs) (mendedNibble _ :: mendedNibble _ :: mendedHexStr bs)
    rw [h1, h2]
    have hb := b.isLt
    have key : ∀ n, n < 16 → IsHexDigit (mendedNibble n) n := by
      intro n hn
      unfold IsHexDigit mendedNibble
      split <;> omega
    exact ⟨key _ (by omega), key _ (by omega), ih⟩

/-- **C89** C46 without exceptions: the description, and after a separator the message if there is one. -/
theorem c89_display (e : ParseError) :
    e.mendedDisplay = e.kind.description ++ (match e.source with
      | none => ""
      | some m => ": " ++ m) := by
  obtain ⟨k, s⟩ := e
  cases s with
  | none => cases k <;> rfl
  | some m =>
    rw [show (ParseError.mk k (some m)).kind = k from rfl]
    have : (ParseError.mk k (some m)).mendedDisplay = k.description ++ ": " ++ m := by cases k <;> rfl
    rw [this, String.append_assoc]

/-! ## Concrete cases -/

/-- The input of `c73_while_false`: the loop goes on behind the short record, and the three bytes at the end are not an error. -/
theorem c89_while : (match Sound.untilEof pairVisitor 9 (Parser.new (⟨0, demoBad⟩ : Slice) demoCfg) with
    | some [.error (.err e), .ok (.lost r, _)] => e.kind == .invalidRecord && r == ⟨7, 3⟩
    | _ => false) = true ∧
    (recordsIn demoCfg demoBad).length = 2 ∧ ¬ (cut demoCfg demoBad).length = 2 := by decide +kernel

/-- The input of `c73_switch_false`: SWITCH, then SWITCH_CPU_WIDE. -/
theorem c89_switch : (match Sound.untilEof pairVisitor 9
      (Parser.new (⟨4096, [demoSwitchIn, demoSwitch].flatMap (KRecord.encAll .little demoCfg)⟩ : Slice) demoCfg) with
    | some [.ok (.switch, _), .ok (.switchCpuWide _, _)] => true
    | _ => false) = true := by decide +kernel

/-- The branch of `c59_branch_false`, the build id of `c43_false` and the error of `c46_display_false`. -/
theorem c89_witnesses :
    (match ((parseBranchEntry : P Slice BranchEntry)
      (Parser.new ⟨1, (KBranch.mk 1 2 true false false false 0x1234 5 0).enc .big⟩ demoBigCfg)).res with
    | .ok e => (e.mended demoBigCfg.endian .little).mispred .little && !(e.mended demoBigCfg.endian .little).predicted .little &&
        (e.mended demoBigCfg.endian .little).cycles .little == 0x1234 && (e.mended demoBigCfg.endian .little).ty .little == 5
    | _ => false) = true ∧
    mendedHexStr [0x1a] = ['1'.toNat, 'A'.toNat] ∧
    (ParseError.custom .invalidRecord "bad size").mendedDisplay = "invalid record: bad size" ∧
    (ParseError.new "disk on fire").mendedDisplay = "user-provided error: disk on fire" := by decide +kernel

/-- The visitors of the crate and of this project do not make up an `Eof`. -/
theorem c89_visitors : (recordVisitor Cow).NoEof ∧ (pairVisitor : Visitor Cow _).NoEof := by
  refine ⟨fun r md => ?_, fun r md => ?_⟩
  · obtain ⟨a, ha, _⟩ := recordVisitor_view r md
    rw [ha]
    rfl
  · cases r <;> rfl

end Perf
