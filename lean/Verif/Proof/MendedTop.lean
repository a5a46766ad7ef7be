import Verif.Proof.Keeps
import Verif.Proof.Top
/-!
# `parse_record` of the corrected crate
-/
namespace Perf
variable {β γ : Type} [ParseBuf β] [Lawful β] {O : Type}
open ParserM

theorem Flat.input_region (f : Flat) (n : Nat) : (f.region n).input = Ideal.region f.input n := rfl

/-- What the framing of the corrected crate does. -/
def FrameOk (f : Flat) (res : Except Fault (Parser Cursor × Metadata)) : Except ParseError (Input × Metadata) → Prop
  | .ok (r, md) => ∃ c g, res = .ok (c, md) ∧ Region g c ∧ g.input = r ∧ g.s.bytes.length ≤ f.s.bytes.length
  | .error e => res = .error (.err e)

theorem Mend.metadata_run {p : Parser β} {f : Flat} (hp : RepP p f) (h : Header) :
    FrameOk f (Mend.metadataWithHeader h p : Out β (Parser Cursor × Metadata)).res (Ideal.frame h f.input) ∧
    (8 ≤ h.size.toNat → h.size.toNat - 8 ≤ f.s.bytes.length →
      RepP (Mend.metadataWithHeader h p : Out β (Parser Cursor × Metadata)).st (f.adv (h.size.toNat - 8))) := by
  unfold Mend.metadataWithHeader Ideal.frame
  by_cases h8 : h.size.toNat < 8
  · rw [P.ite_pos h8, if_pos h8]
    exact ⟨rfl, fun _ => by omega⟩
  rw [P.ite_neg h8, if_neg h8]
  have hlim : h.size.toNat - 8 < usizeLimit := by
    have := h.size_lt; unfold usizeLimit; omega
  obtain ⟨hs, _⟩ := P.splitAt_takes hp (len := h.size.toNat - 8) hlim
  rcases Nat.lt_or_ge f.s.bytes.length (h.size.toNat - 8) with hlt | hle
  · have hle : ¬ h.size.toNat - 8 ≤ f.s.bytes.length := by omega
    rw [if_neg hle] at hs
    rw [P.bind_err (P.run_eq _ hs), if_pos (show f.input.bytes.length < _ from hlt)]
    exact ⟨rfl, fun _ _ => by omega⟩
  rw [if_pos hle] at hs
  obtain ⟨rp, hres, hso, hrep, _⟩ := hs
  rw [P.bind_ok (P.run_eq _ hres)]
  rw [if_neg (show ¬ f.input.bytes.length < _ from Nat.not_lt.mpr hle)]
  have hcfg : rp.config = f.cfg := hso.rep.cfg
  by_cases hty : h.type_.toNat = 9
  · rw [P.ite_pos hty, if_pos hty]
    exact ⟨⟨rp, f.region (h.size.toNat - 8), rfl, hso.region hle, rfl, by simp [Flat.region]; omega⟩, fun _ _ => hrep⟩
  rw [P.ite_neg hty, if_neg hty]
  simp only [hcfg]
  by_cases hest : h.size.toNat - 8 < SampleId.estimateLen f.cfg
  · rw [P.ite_pos hest, if_pos (show _ < SampleId.estimateLen f.input.cfg from hest)]
    exact ⟨rfl, fun _ _ => hrep⟩
  rw [P.ite_neg hest, if_neg (show ¬ _ < SampleId.estimateLen f.input.cfg from hest)]
  have hrl : (f.s.bytes.take (h.size.toNat - 8)).length = h.size.toNat - 8 := by
    rw [List.length_take]; omega
  obtain ⟨hs2, _⟩ := P.splitAt_takes hso.rep (len := h.size.toNat - 8 - SampleId.estimateLen f.cfg) (by omega)
  rw [if_pos (by simp only [hrl]; omega)] at hs2
  obtain ⟨c, hres2, hso2, hrep2, _⟩ := hs2
  rw [P.bind_ok (P.onChild_ok (P.run_eq _ hres2) _)]
  have hr := Mends.sampleId (β := Cursor) _
    ((Ideal.region f.input (h.size.toNat - 8)).adv (h.size.toNat - 8 - SampleId.estimateLen f.cfg)) _ hrep2
  rw [show f.input.cfg = f.cfg from rfl]
  rcases hsid : (parseSampleId : Ideal SampleId) ((Ideal.region f.input (h.size.toNat - 8)).adv
    (h.size.toNat - 8 - SampleId.estimateLen f.cfg)) with e | ⟨sid, i⟩
  · rw [hsid] at hr
    rw [P.bind_err (P.onChild_err (P.run_eq _ hr) _)]
    exact ⟨rfl, fun _ _ => hrep⟩
  rw [hsid] at hr
  obtain ⟨a, al, h1, h2, _⟩ := hr
  subst h2
  rw [P.bind_ok (P.onChild_ok (P.run_eq _ h1) _)]
  have hreg := hso2.region (by simp only [hrl]; omega)
  have heq : Flat.region ⟨⟨f.s.bytes.take (h.size.toNat - 8), f.s.al, .eof⟩, 0, f.cfg⟩
      (h.size.toNat - 8 - SampleId.estimateLen f.cfg) = f.region (h.size.toNat - 8 - SampleId.estimateLen f.cfg) := by
    simp only [Flat.region, List.take_take]
    rw [Nat.min_eq_left (by omega)]
  rw [heq] at hreg
  exact ⟨⟨c, f.region (h.size.toNat - 8 - SampleId.estimateLen f.cfg), rfl, hreg, rfl, by simp [Flat.region]; omega⟩,
    fun _ _ => hrep⟩

/-- What the corrected `parse_record_with_header` does: the visitor is given the ideal record, or the ideal error is returned. -/
def MendedOk (v : Visitor Cow O) (res : Except Fault O) : Except ParseError (Record List × Metadata) → Prop
  | .ok (rec, md) => ∃ a : Record Cow, a.view = rec ∧ res = v.apply a md
  | .error e => res = .error (.err e)

omit [Lawful β] in
theorem Mend.recordImpl_run {β : Type} [ParseBuf β] [ParseBuf γ] [LawfulEof γ] {q : Parser γ} {g : Flat} (hq : RepP q g) (h0 : g.off = 0)
    (v : Visitor Cow O) (md : Metadata) (st : Parser β) :
    MendedOk v (Mend.recordImpl q v md st : Out β O).res
      (match (mendedBody md.ty : Ideal (Record List)) { g.input with cfg := g.cfg.withMisc md.misc } with
        | .error e => .error e
        | .ok (rec, _) => .ok (rec, md)) := by
  have hm := Mends.body md.ty (β := Tracking γ) _ { g.input with cfg := g.cfg.withMisc md.misc } g.s.al (hq.withMisc h0 md.misc)
  unfold Mend.recordImpl
  rcases hd : (mendedBody md.ty : Mend (Tracking γ) (Record Cow)) (Parser.new q.data (q.config.withMisc md.misc)) with ⟨res, q', l⟩
  rw [hd] at hm
  rcases hs : (mendedBody md.ty : Ideal (Record List)) { g.input with cfg := g.cfg.withMisc md.misc } with e | ⟨rec, i'⟩
  · rw [show (mendedBody md.ty : Ideal (Record List)) _ = _ from hs] at hm
    cases (show res = _ from hm)
    rw [P.bind_err (P.onChild_err hd st)]
    rfl
  · rw [show (mendedBody md.ty : Ideal (Record List)) _ = _ from hs] at hm
    obtain ⟨a, al, h1, h2, _⟩ := hm
    cases (show res = _ from h1)
    rw [P.bind_ok (P.onChild_ok hd st)]
    exact ⟨a, h2, rfl⟩

theorem Mend.recordImpl_st {β : Type} [ParseBuf β] [ParseBuf γ] (q : Parser γ) (v : Visitor Cow O) (md : Metadata) (st : Parser β) :
    (Mend.recordImpl q v md st : Out β O).st = st := by
  unfold Mend.recordImpl
  rcases hd : (mendedBody md.ty : Mend (Tracking γ) (Record Cow)) (Parser.new q.data (q.config.withMisc md.misc)) with ⟨res, q', l⟩
  cases res with
  | error e => rw [P.bind_err (P.onChild_err hd st)]
  | ok a =>
    rw [P.bind_ok (P.onChild_ok hd st)]
    show (P.ofExcept (v.apply a md) st).st = st
    unfold P.ofExcept
    cases v.apply a md <;> rfl

theorem Mend.recordWithHeader_run {p : Parser β} {f : Flat} (hp : RepP p f) (v : Visitor Cow O) (h : Header) :
    MendedOk v (Mend.recordWithHeader v h p : Out β O).res (Ideal.recordWithHeader h f.input) ∧
    (8 ≤ h.size.toNat → h.size.toNat - 8 ≤ f.s.bytes.length →
      RepP (Mend.recordWithHeader v h p : Out β O).st (f.adv (h.size.toNat - 8))) := by
  obtain ⟨hm, hst⟩ := Mend.metadata_run hp h
  unfold Mend.recordWithHeader Ideal.recordWithHeader
  rcases hf : Ideal.frame h f.input with e | ⟨r, md⟩
  · rw [hf] at hm
    rw [P.bind_err (P.run_eq _ hm)]
    exact ⟨rfl, hst⟩
  · rw [hf] at hm
    obtain ⟨c, g, hc, hreg, hg, _⟩ := hm
    subst hg
    rw [P.bind_ok (P.run_eq _ hc)]
    simp only
    cases has : c.data.buf.asSlice with
    | some s =>
      refine ⟨Mend.recordImpl_run (hreg.asSlice has).1 hreg.zero v md _, ?_⟩
      rw [Mend.recordImpl_st]; exact hst
    | none =>
      refine ⟨Mend.recordImpl_run hreg.rep hreg.zero v md _, ?_⟩
      rw [Mend.recordImpl_st]; exact hst

theorem Ideal.header_eq {f : Flat} (h : 8 ≤ f.s.bytes.length) :
    (parseHeader : Ideal Header) f.input = .ok (headerAt f, (f.adv 8).input) := by
  have h1 : Ideal.take 4 f.input = .ok (f.s.bytes.take 4, f.input.adv 4) := Ideal.take_ok (by show 4 ≤ f.s.bytes.length; omega)
  have h2 : Ideal.take 2 (f.input.adv 4) = .ok ((f.s.bytes.drop 4).take 2, f.input.adv 6) := by
    rw [Ideal.take_ok (by rw [Input.adv_bytes, List.length_drop]; show 2 ≤ f.s.bytes.length - 4; omega), Input.adv_adv]; rfl
  have h3 : Ideal.take 2 (f.input.adv 6) = .ok ((f.s.bytes.drop 6).take 2, f.input.adv 8) := by
    rw [Ideal.take_ok (by rw [Input.adv_bytes, List.length_drop]; show 2 ≤ f.s.bytes.length - 6; omega), Input.adv_adv]; rfl
  unfold parseHeader
  refine (Ideal.bind_ok (i' := f.input.adv 4) ((Ideal.bind_ok (m := Ideal.take 4) h1).trans rfl)).trans ?_
  refine (Ideal.bind_ok (i' := f.input.adv 6) ((Ideal.bind_ok (m := Ideal.take 2) h2).trans rfl)).trans ?_
  exact (Ideal.bind_ok (i' := f.input.adv 8) ((Ideal.bind_ok (m := Ideal.take 2) h3).trans rfl)).trans rfl

theorem Ideal.header_short {f : Flat} (h : f.s.bytes.length < 8) : (parseHeader : Ideal Header) f.input = .error f.s.fin := by
  unfold parseHeader
  rcases Nat.lt_or_ge f.s.bytes.length 4 with h4 | h4
  · exact Ideal.bind_err (Ideal.bind_err (m := Ideal.take 4) (Ideal.take_short h4))
  have h1 : Ideal.take 4 f.input = .ok (f.s.bytes.take 4, f.input.adv 4) := Ideal.take_ok h4
  refine (Ideal.bind_ok (i' := f.input.adv 4) ((Ideal.bind_ok (m := Ideal.take 4) h1).trans rfl)).trans ?_
  rcases Nat.lt_or_ge f.s.bytes.length 6 with h6 | h6
  · exact Ideal.bind_err (Ideal.bind_err (m := Ideal.take 2) (Ideal.take_short (by
      rw [Input.adv_bytes, List.length_drop]; show f.s.bytes.length - 4 < 2; omega)))
  have h2 : Ideal.take 2 (f.input.adv 4) = .ok ((f.s.bytes.drop 4).take 2, f.input.adv 6) := by
    rw [Ideal.take_ok (by rw [Input.adv_bytes, List.length_drop]; show 2 ≤ f.s.bytes.length - 4; omega), Input.adv_adv]; rfl
  refine (Ideal.bind_ok (i' := f.input.adv 6) ((Ideal.bind_ok (m := Ideal.take 2) h2).trans rfl)).trans ?_
  exact Ideal.bind_err (Ideal.bind_err (m := Ideal.take 2) (Ideal.take_short (by
    rw [Input.adv_bytes, List.length_drop]; show f.s.bytes.length - 6 < 2; omega)))

theorem Mend.record_run {p : Parser β} {f : Flat} (hp : RepP p f) (v : Visitor Cow O) :
    MendedOk v (Mend.record v p : Out β O).res (Ideal.record f.input) ∧
    (8 ≤ f.s.bytes.length → 8 ≤ (headerAt f).size.toNat → (headerAt f).size.toNat ≤ f.s.bytes.length →
      ∃ al, RepP (Mend.record v p : Out β O).st ((f.input.adv (headerAt f).size.toNat).flat al)) := by
  have hm := Mends.header (β := β) p f.input f.s.al hp
  unfold Mend.record Ideal.record
  rcases hh : (parseHeader : Ideal Header) f.input with e | ⟨h, i⟩
  · refine ⟨?_, fun h8 => by rw [Ideal.header_eq h8] at hh; cases hh⟩
    rw [hh] at hm
    rw [P.bind_err (m := ((parseHeader : Mend β Header) : P β Header)) (P.run_eq _ hm)]
    rfl
  · have hh0 := hh
    rw [hh] at hm
    obtain ⟨a, al, h1, h2, h3⟩ := hm
    subst h2
    rw [P.bind_ok (m := ((parseHeader : Mend β Header) : P β Header)) (P.run_eq _ h1)]
    obtain ⟨h4, h5⟩ := Mend.recordWithHeader_run h3 v a
    refine ⟨h4, fun h8 hs hl => ?_⟩
    rw [Ideal.header_eq h8] at hh0
    cases hh0
    have := h5 hs (by show _ ≤ (f.input.adv 8).bytes.length; rw [Input.adv_bytes, List.length_drop]; show _ ≤ f.s.bytes.length - 8; omega)
    refine ⟨al.add ((headerAt f).size.toNat - 8), ?_⟩
    rw [Input.flat_adv, Flat.input_adv, Input.adv_adv, Nat.add_sub_cancel' hs] at this
    exact this

end Perf
