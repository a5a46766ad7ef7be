import Verif.Proof.SuitsRec
/-!
# `parse_record` of the corrected crate on any machine
-/
namespace Perf
variable {w : Platform} {β γ : Type} [ParseBuf β] [Lawful β] {O : Type}
open ParserM

/-- The visitor is given the ideal record, or the ideal error is returned, up to `Instead`. -/
def SuitsOk (v : Visitor Cow O) (res : Except Fault O) : Except ParseError (Record List × Metadata) → Prop
  | .ok (rec, md) => ∃ a : Record Cow, a.view = rec ∧ res = v.apply a md
  | .error e => ∃ e', res = .error (.err e') ∧ Instead e e'

omit [Lawful β] in
theorem MendOn.recordImpl_run {β : Type} [ParseBuf β] [ParseBuf γ] [LawfulEof γ] {q : Parser γ} {g : Flat} (hq : RepP q g) (h0 : g.off = 0)
    (hs : Suited w g.input) (v : Visitor Cow O) (md : Metadata) (st : Parser β) :
    SuitsOk v (MendOn.recordImpl w q v md st : Out β O).res
      (match (mendedBody md.ty : Ideal (Record List)) { g.input with cfg := g.cfg.withMisc md.misc } with
        | .error e => .error e
        | .ok (rec, _) => .ok (rec, md)) := by
  have hm := Suits.body (w := w) md.ty (β := Tracking γ) _ { g.input with cfg := g.cfg.withMisc md.misc } g.s.al (hq.withMisc h0 md.misc) hs
  unfold MendOn.recordImpl
  rcases hd : (mendedBody md.ty : MendOn w (Tracking γ) (Record Cow)) (Parser.new q.data (q.config.withMisc md.misc)) with ⟨res, q', l⟩
  rw [hd] at hm
  rcases hs : (mendedBody md.ty : Ideal (Record List)) { g.input with cfg := g.cfg.withMisc md.misc } with e | ⟨rec, i'⟩
  · rw [show (mendedBody md.ty : Ideal (Record List)) _ = _ from hs] at hm
    obtain ⟨e', hm, hi⟩ := hm
    have hm : res = _ := hm
    subst hm
    rw [P.bind_err (P.onChild_err hd st)]
    exact ⟨e', rfl, hi⟩
  · rw [show (mendedBody md.ty : Ideal (Record List)) _ = _ from hs] at hm
    obtain ⟨a, al, h1, h2, _⟩ := hm
    cases (show res = _ from h1)
    rw [P.bind_ok (P.onChild_ok hd st)]
    exact ⟨a, h2, rfl⟩

omit [Lawful β] in
theorem MendOn.recordImpl_st {β : Type} [ParseBuf β] [ParseBuf γ] (q : Parser γ) (v : Visitor Cow O) (md : Metadata) (st : Parser β) :
    (MendOn.recordImpl w q v md st : Out β O).st = st := by
  unfold MendOn.recordImpl
  rcases hd : (mendedBody md.ty : MendOn w (Tracking γ) (Record Cow)) (Parser.new q.data (q.config.withMisc md.misc)) with ⟨res, q', l⟩
  cases res with
  | error e => rw [P.bind_err (P.onChild_err hd st)]
  | ok a =>
    rw [P.bind_ok (P.onChild_ok hd st)]
    show (P.ofExcept (v.apply a md) st).st = st
    unfold P.ofExcept
    cases v.apply a md <;> rfl

theorem MendOn.recordWithHeader_st {β : Type} [ParseBuf β] (p : Parser β) (v : Visitor Cow O) (h : Header) :
    (MendOn.recordWithHeader w v h p : Out β O).st = (Mend.metadataWithHeader h p : Out β (Parser Cursor × Metadata)).st := by
  unfold MendOn.recordWithHeader
  rcases hm : (Mend.metadataWithHeader h p : Out β (Parser Cursor × Metadata)) with ⟨e | ⟨c, md⟩, q, l⟩
  · rw [P.bind_err hm]
  · rw [P.bind_ok hm]
    simp only
    cases c.data.buf.asSlice with
    | some s => simp only; rw [MendOn.recordImpl_st]
    | none => simp only; rw [MendOn.recordImpl_st]

theorem Ideal.frame_suited {h : Header} {i : Input} {x : Input × Metadata} (hw : 16 ≤ w.bits ∧ w.bits ≤ 64) (hf : Ideal.frame h i = .ok x) :
    Suited w x.1 := by
  have hlim : 2 ^ 16 ≤ w.limit := Nat.pow_le_pow_right (by decide) hw.1
  have hsz := h.size_lt
  have key : ∀ n, n ≤ h.size.toNat - 8 → Suited w (Ideal.region i n) := fun n hn =>
    ⟨by show (i.bytes.take n).length < _; rw [List.length_take]; omega, rfl, hw.2⟩
  unfold Ideal.frame at hf
  split at hf
  · cases hf
  · split at hf
    · cases hf
    · split at hf
      · cases hf; exact key _ (Nat.le_refl _)
      · split at hf
        · cases hf
        · split at hf
          · cases hf
          · cases hf; exact key _ (Nat.sub_le _ _)

theorem MendOn.recordWithHeader_run {p : Parser β} {f : Flat} (hw : 16 ≤ w.bits ∧ w.bits ≤ 64) (hp : RepP p f) (v : Visitor Cow O)
    (h : Header) : SuitsOk v (MendOn.recordWithHeader w v h p : Out β O).res (Ideal.recordWithHeader h f.input) := by
  obtain ⟨hm, _⟩ := Mend.metadata_run hp h
  unfold MendOn.recordWithHeader Ideal.recordWithHeader
  rcases hf : Ideal.frame h f.input with e | ⟨r, md⟩
  · rw [hf] at hm
    rw [P.bind_err (P.run_eq _ hm)]
    exact ⟨e, rfl, .inl rfl⟩
  · have hs := Ideal.frame_suited hw hf
    rw [hf] at hm
    obtain ⟨c, g, hc, hreg, hg, _⟩ := hm
    subst hg
    rw [P.bind_ok (P.run_eq _ hc)]
    simp only
    cases has : c.data.buf.asSlice with
    | some s => exact MendOn.recordImpl_run (hreg.asSlice has).1 hreg.zero hs v md _
    | none => exact MendOn.recordImpl_run hreg.rep hreg.zero hs v md _

theorem MendOn.record_run {p : Parser β} {f : Flat} (hw : 16 ≤ w.bits ∧ w.bits ≤ 64) (hp : RepP p f) (v : Visitor Cow O) :
    SuitsOk v (MendOn.record w v p : Out β O).res (Ideal.record f.input) := by
  have hm := Mends.header (β := β) p f.input f.s.al hp
  unfold MendOn.record Ideal.record
  rcases hh : (parseHeader : Ideal Header) f.input with e | ⟨h, i⟩
  · rw [hh] at hm
    rw [P.bind_err (m := ((parseHeader : Mend β Header) : P β Header)) (P.run_eq _ hm)]
    exact ⟨e, rfl, .inl rfl⟩
  · rw [hh] at hm
    obtain ⟨a, al, h1, h2, h3⟩ := hm
    subst h2
    rw [P.bind_ok (m := ((parseHeader : Mend β Header) : P β Header)) (P.run_eq _ h1)]
    exact MendOn.recordWithHeader_run hw h3 v a

theorem MendOn.record_st {β : Type} [ParseBuf β] (p : Parser β) (v : Visitor Cow O) : (MendOn.record w v p : Out β O).st = (Mend.record v p : Out β O).st := by
  unfold MendOn.record Mend.record
  rcases hh : ((parseHeader : Mend β Header) : P β Header) p with ⟨e | h, q, l⟩
  · rw [P.bind_err hh, P.bind_err hh]
  · rw [P.bind_ok hh, P.bind_ok hh]
    show (MendOn.recordWithHeader w v h q : Out β O).st = (Mend.recordWithHeader v h q : Out β O).st
    rw [MendOn.recordWithHeader_st]
    unfold Mend.recordWithHeader
    rcases hm : (Mend.metadataWithHeader h q : Out β (Parser Cursor × Metadata)) with ⟨e | ⟨c, md⟩, q', l'⟩
    · rw [P.bind_err hm]
    · rw [P.bind_ok hm]
      simp only
      cases c.data.buf.asSlice with
      | some s => simp only; rw [Mend.recordImpl_st]
      | none => simp only; rw [Mend.recordImpl_st]

end Perf
