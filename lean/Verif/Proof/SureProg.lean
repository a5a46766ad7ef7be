import Verif.Proof.SureRec
/-!
# Programs against the corrected crate do what `Sure` says
-/
namespace Perf
variable {β : Type} [ParseBuf β] [LawfulEof β] {α α' T : Type}
open ParserM

theorem Sures.attrStep {c : Bool} {f : Attr → Mend β Attr} {g : Attr → Sure Attr} (a : Attr)
    (h : ∀ a, Sures Eq (f a) (g a)) : Sures Eq (Perf.attrStep c f a) (Perf.attrStep c g a) := by
  cases c with
  | true => exact h a
  | false => exact Sures.pure rfl

theorem Sures.attrTail (a : Attr) : Sures Eq (Perf.attrTail a : Mend β Attr) (Perf.attrTail a) := by
  unfold Perf.attrTail
  refine Sures.bind Sures.rest (fun r r' h => ?_)
  have h' : elems (Mend β) r = elems Sure r' := h
  rw [h']
  exact Sures.ite (fun _ => Sures.pure rfl) (fun _ => Sures.fail _)

theorem Sures.attrHead (t s : U32) : Sures Eq (Perf.attrHead t s : Mend β Attr) (Perf.attrHead t s) := by
  unfold Perf.attrHead
  have v0 : ∀ a, Sures Eq (attrVer0 a : Mend β Attr) (attrVer0 a) := fun a => by unfold attrVer0; sures
  have v1 : ∀ a, Sures Eq (attrVer1 a : Mend β Attr) (attrVer1 a) := fun a => by unfold attrVer1; sures
  have v2 : ∀ a, Sures Eq (attrVer2 a : Mend β Attr) (attrVer2 a) := fun a => by unfold attrVer2; sures
  have v3 : ∀ a, Sures Eq (attrVer3 a : Mend β Attr) (attrVer3 a) := fun a => by unfold attrVer3; sures
  have v4 : ∀ a, Sures Eq (attrVer4 a : Mend β Attr) (attrVer4 a) := fun a => by unfold attrVer4; sures
  have v5 : ∀ a, Sures Eq (attrVer5 a : Mend β Attr) (attrVer5 a) := fun a => by unfold attrVer5; sures
  have v6 : ∀ a, Sures Eq (attrVer6 a : Mend β Attr) (attrVer6 a) := fun a => by unfold attrVer6; sures
  have v7 : ∀ a, Sures Eq (attrVer7 a : Mend β Attr) (attrVer7 a) := fun a => by unfold attrVer7; sures
  have v8 : ∀ a, Sures Eq (attrVer8 a : Mend β Attr) (attrVer8 a) := fun a => by unfold attrVer8; sures
  refine Sures.bind (Sures.attrStep _ v0) fun _ a h => ?_; subst h
  refine Sures.bind (Sures.attrStep _ v1) fun _ a h => ?_; subst h
  refine Sures.bind (Sures.attrStep _ v2) fun _ a h => ?_; subst h
  refine Sures.bind (Sures.attrStep _ v3) fun _ a h => ?_; subst h
  refine Sures.bind (Sures.attrStep _ v4) fun _ a h => ?_; subst h
  refine Sures.bind (Sures.attrStep _ v5) fun _ a h => ?_; subst h
  refine Sures.bind (Sures.attrStep _ v6) fun _ a h => ?_; subst h
  refine Sures.bind (Sures.attrStep _ v7) fun _ a h => ?_; subst h
  exact Sures.attrStep _ v8

theorem Sures.attrBody (t s : U32) : Sures Eq (Perf.attrBody t s : Mend β Attr) (Perf.attrBody t s) := by
  unfold Perf.attrBody
  refine Sures.bind (Sures.attrHead t s) fun _ a h => ?_; subst h
  exact Sures.attrStep _ Sures.attrTail


theorem Exhausts.splitAt_short {p : Parser β} {i : Input} {al : Al} (hp : RepP p (i.flat al)) (hk : i.fin.kind = .eof) {n : Nat}
    (h : (P.splitAt n p : Out β _).res = .error (.err i.fin)) : RepP (P.splitAt n p).st ((i.adv i.bytes.length).flat (al.add i.bytes.length)) := by
  have h2 := Exhausts.splitAt LawfulEof.eof_law n p _ hp hk
  unfold Exhausted at h2
  rw [h] at h2
  exact h2

theorem Sures.attr : Sures Eq (Mend.parseAttr : P β Attr) Sure.attr := by
  unfold Mend.parseAttr Sure.attr
  refine Sures.bind Sures.u32 fun t _ h => ?_; subst h
  refine Sures.bind Sures.u32 fun s _ h => ?_; subst h
  refine Sures.ite (fun _ => Sures.fail _) fun _ => ?_
  intro p i al hp hk
  have hlim : s.toNat - 8 < usizeLimit := by have := s.isLt; unfold usizeLimit; omega
  obtain ⟨hs, _⟩ := P.splitAt_takes hp hlim
  rcases Nat.lt_or_ge i.bytes.length (s.toNat - 8) with hlt | hle
  · have hle : ¬ s.toNat - 8 ≤ i.bytes.length := by omega
    rw [if_neg (show ¬ s.toNat - 8 ≤ (i.flat al).s.bytes.length from hle)] at hs
    rw [P.bind_err (P.run_eq _ hs)]
    show Lands Eq _ (if s.toNat - 8 ≤ i.bytes.length then _ else _)
    rw [if_neg hle]
    exact ⟨rfl, ⟨_, Exhausts.splitAt_short hp hk hs⟩, hk⟩
  rw [if_pos (show s.toNat - 8 ≤ (i.flat al).s.bytes.length from hle)] at hs
  obtain ⟨rp, hres, hso, hrep, _⟩ := hs
  rw [P.bind_ok (P.run_eq _ hres)]
  show Lands Eq _ (if s.toNat - 8 ≤ i.bytes.length then _ else _)
  rw [if_pos (show s.toNat - 8 ≤ i.bytes.length from hle)]
  have hr := Sures.attrBody t s rp (Ideal.region i (s.toNat - 8)) _ (hso.region (f := i.flat al) hle).rep rfl
  rcases hb : (Perf.attrBody t s : Sure Attr) (Ideal.region i (s.toNat - 8)) with ⟨e | a, g⟩ <;> rw [hb] at hr
  · rw [P.bind_err (P.onChild_err (P.run_eq _ hr.1) _)]
    exact ⟨rfl, ⟨_, hrep⟩, hk⟩
  · obtain ⟨⟨a', hr1, rfl⟩, _⟩ := hr
    rw [P.bind_ok (P.onChild_ok (P.run_eq _ hr1) _)]
    exact ⟨⟨_, rfl, rfl⟩, ⟨_, hrep⟩, hk⟩

theorem Sure.past_fin (h : Header) {i : Input} (hk : i.fin.kind = .eof) : (Sure.past h i).fin.kind = .eof := by
  unfold Sure.past
  split <;> exact hk

theorem Ideal.frame_ok {h : Header} {i : Input} {x : Input × Metadata} (hf : Ideal.frame h i = .ok x) :
    8 ≤ h.size.toNat ∧ h.size.toNat - 8 ≤ i.bytes.length ∧ x.1.fin = .eof := by
  unfold Ideal.frame at hf
  split at hf
  · cases hf
  · split at hf
    · cases hf
    · refine ⟨by omega, by omega, ?_⟩
      split at hf
      · cases hf; rfl
      · split at hf
        · cases hf
        · split at hf
          · cases hf
          · cases hf; rfl

/-- Where the framing leaves the parser. -/
theorem Mend.metadata_past {p : Parser β} {i : Input} {al : Al} (hp : RepP p (i.flat al)) (hk : i.fin.kind = .eof) (h : Header) :
    ∃ al', RepP (Mend.metadataWithHeader h p : Out β (Parser Cursor × Metadata)).st ((Sure.past h i).flat al') := by
  unfold Sure.past
  by_cases h8 : h.size.toNat < 8
  · rw [if_pos h8]
    unfold Mend.metadataWithHeader
    rw [P.ite_pos h8]
    exact ⟨al, hp⟩
  rw [if_neg h8]
  by_cases hle : h.size.toNat - 8 ≤ i.bytes.length
  · rw [Nat.min_eq_left hle]
    exact ⟨_, (Mend.metadata_run hp h).2 (by omega) hle⟩
  · rw [Nat.min_eq_right (by omega)]
    have h1 := (P.splitAt_takes hp (len := h.size.toNat - 8) (by have := h.size_lt; unfold usizeLimit; omega)).1
    rw [if_neg (show ¬ h.size.toNat - 8 ≤ (i.flat al).s.bytes.length from hle)] at h1
    unfold Mend.metadataWithHeader
    rw [P.ite_neg h8, P.bind_err (P.run_eq _ h1)]
    exact ⟨_, Exhausts.splitAt_short hp hk h1⟩

theorem Ideal.bind_pure_inv {γ : Type} {s : Ideal α} {k : α → γ} {x : γ} {i i' : Input}
    (h : (s >>= fun a => Pure.pure (k a)) i = .ok (x, i')) : ∃ a, x = k a := by
  rcases hs : s i with e | ⟨a, g⟩
  · rw [Ideal.bind_err hs] at h; cases h
  · rw [Ideal.bind_ok hs] at h; cases h; exact ⟨a, rfl⟩

/-- An unknown record has this type. -/
def Ideal.KeepsType (ty : U32) (s : Ideal (Record List)) : Prop := ∀ i i' t d, s i = .ok (.unknown t d, i') → t = ty

/-- Only the fallback makes an unknown record, and it keeps the type. -/
theorem mendedBody_unknown (ty : U32) : Ideal.KeepsType ty (mendedBody ty : Ideal (Record List)) := by
  unfold mendedBody
  split
  all_goals
    intro i i' t d h
    first
    | (obtain ⟨a, ha⟩ := Ideal.bind_pure_inv h; cases ha)
    | cases h
  rfl

theorem Ideal.recordWithHeader_unknown {h : Header} {i : Input} {t : U32} {d : List Byte} {md : Metadata}
    (hr : Ideal.recordWithHeader h i = .ok (.unknown t d, md)) : t = md.ty := by
  unfold Ideal.recordWithHeader at hr
  split at hr
  · cases hr
  · split at hr
    · cases hr
    · rename_i hb
      cases hr
      exact mendedBody_unknown _ _ _ _ _ hb

theorem Sures.recordWithHeader {O : Type} (v : Visitor Cow O) {R : O → Record List × Metadata → Prop}
    (hv : ∀ (a : Record Cow) md, (∀ t d, a = .unknown t d → t = md.ty) → ∃ o, v.apply a md = .ok o ∧ R o (a.view, md)) (h : Header) :
    Sures R (Mend.recordWithHeader v h : P β O) (Sure.recordWithHeader h) := by
  intro p i al hp hk
  have h1 := (Mend.recordWithHeader_run hp v h).1
  have hst : (Mend.recordWithHeader v h p : Out β O).st = (Mend.metadataWithHeader h p : Out β (Parser Cursor × Metadata)).st := by
    unfold Mend.recordWithHeader
    rcases hm : (Mend.metadataWithHeader h p : Out β (Parser Cursor × Metadata)) with ⟨e | ⟨c, md⟩, q, l⟩
    · rw [P.bind_err hm]
    · rw [P.bind_ok hm]
      simp only
      cases c.data.buf.asSlice with
      | some s => simp only; rw [Mend.recordImpl_st]
      | none => simp only; rw [Mend.recordImpl_st]
  unfold Sure.recordWithHeader
  refine ⟨?_, ?_, Sure.past_fin h hk⟩
  · rw [show (i.flat al).input = i from rfl] at h1
    rcases hr : Ideal.recordWithHeader h i with e | ⟨rec, md⟩ <;> rw [hr] at h1
    · exact h1
    · obtain ⟨a, h2, h3⟩ := h1
      obtain ⟨o, h4, h5⟩ := hv a md fun t d hd => by
        rw [hd] at h2
        rw [← h2] at hr
        exact Ideal.recordWithHeader_unknown hr
      refine ⟨o, ?_, by rw [← h2]; exact h5⟩
      show (Mend.recordWithHeader v h p : Out β O).res = _
      rw [h3, h4]
  · show ∃ al, RepP (Mend.recordWithHeader v h p : Out β O).st _
    rw [hst]
    exact Mend.metadata_past hp hk h

theorem Sures.record {O : Type} (v : Visitor Cow O) {R : O → Record List × Metadata → Prop}
    (hv : ∀ (a : Record Cow) md, (∀ t d, a = .unknown t d → t = md.ty) → ∃ o, v.apply a md = .ok o ∧ R o (a.view, md)) : Sures R (Mend.record v : P β O) Sure.record :=
  Sures.bind Sures.header fun h _ e => by subst e; exact Sures.recordWithHeader v hv h

theorem pairVisitor_pairs (a : Record Cow) (md : Metadata) (hu : ∀ t d, a = .unknown t d → t = md.ty) :
    ∃ o, pairVisitor.apply a md = .ok o ∧ (o.1.view, o.2) = (a.view, md) := by
  cases a with
  | unknown t d => rw [hu t d rfl]; exact ⟨_, rfl, rfl⟩
  | _ => exact ⟨_, rfl, rfl⟩

/-- The metadata comes with a parser of the body. -/
def OpenedBody (c : Parser Cursor × Metadata) (r : Input × Metadata) : Prop := c.2 = r.2 ∧ (∃ al, RepP c.1 (r.1.flat al)) ∧ r.1.fin.kind = .eof

theorem Sures.metadataWith (h : Header) : Sures OpenedBody (Mend.metadataWith h : P β _) (Sure.metadataWith h) := by
  intro p i al hp hk
  have h1 := (Mend.metadata_run hp h).1
  obtain ⟨al', h2⟩ := Mend.metadata_past hp hk h
  rw [show (i.flat al).input = i from rfl] at h1
  show Lands _ ((Mend.metadataWithHeader h >>= _ : P β _) p) _
  unfold Sure.metadataWith
  rcases hf : Ideal.frame h i with e | ⟨r, md⟩ <;> rw [hf] at h1
  · rw [P.bind_err (P.run_eq _ h1)]
    exact ⟨rfl, ⟨al', h2⟩, Sure.past_fin h hk⟩
  · obtain ⟨c, g, hc, hreg, hg, _⟩ := h1
    subst hg
    rw [P.bind_ok (P.run_eq _ hc)]
    refine ⟨⟨_, rfl, rfl, ⟨g.s.al, hreg.rep.rep, hreg.rep.off, ?_, hreg.rep.wf⟩, ?_⟩, ⟨al', h2⟩, Sure.past_fin h hk⟩
    · show c.config.withMisc _ = _
      rw [hreg.rep.cfg]; rfl
    · have := (Ideal.frame_ok hf).2.2
      show g.input.fin.kind = _
      rw [this]; rfl

theorem Sures.metadata : Sures OpenedBody (Mend.metadata : P β _) Sure.metadata :=
  Sures.bind Sures.header fun h _ e => by subst e; exact Sures.metadataWith h

theorem Sures.attempt {m : Mend β α} {s : Sure α} (h : Sures Eq m s) : Sures Eq (P.attempt m : P β _) (Sure.attempt s) := by
  intro p i al hp hk
  have h1 := h p i al hp hk
  unfold Sure.attempt P.attempt
  rcases hs : s i with ⟨e | a, i'⟩ <;> rw [hs] at h1
  · rw [show (m p).res = .error (.err e) from h1.1]
    exact ⟨⟨_, rfl, rfl⟩, h1.2⟩
  · obtain ⟨⟨a', h2, rfl⟩, h3⟩ := h1
    rw [h2]
    exact ⟨⟨_, rfl, rfl⟩, h3⟩

theorem Sures.attemptOn {δ : Type} [ParseBuf δ] [LawfulEof δ] {m : Mend δ α} {s : Sure α} (h : Sures Eq m s) {c : Parser δ} {r : Input}
    {al : Al} (hc : RepP c (r.flat al)) (hr : r.fin.kind = .eof) : Sures Eq (P.attemptOn c m : P β _) (Sure.attemptOn r s) := by
  intro p i al' hp hk
  have h1 := h c r al hc hr
  unfold Sure.attemptOn P.attemptOn
  rcases hs : s r with ⟨e | a, i'⟩ <;> rw [hs] at h1
  · rw [show (m c).res = .error (.err e) from h1.1]
    exact ⟨⟨_, rfl, rfl⟩, ⟨al', hp⟩, hk⟩
  · obtain ⟨⟨a', h2, rfl⟩, h3⟩ := h1
    rw [h2]
    exact ⟨⟨_, rfl, rfl⟩, ⟨al', hp⟩, hk⟩

/-- What is done with the body, and then with the rest. -/
theorem Sures.opened {m : P β (Parser Cursor × Metadata)} {s : Sure (Input × Metadata)} (h : Sures OpenedBody m s) {b : Mend Cursor T}
    {b' : Sure T} (hb : Sures Eq b b') {k : Metadata → Except ParseError T → Mend β α} {k' : Metadata → Except ParseError T → Sure α}
    (hk : ∀ md r, Sures Eq (k md r) (k' md r)) :
    Sures Eq (m >>= fun x => P.attemptOn x.1 b >>= fun r => k x.2 r : P β α) (s.bind fun x => (Sure.attemptOn x.1 b').bind fun r => k' x.2 r) := by
  refine Sures.bind (m := m) h fun c r hc => ?_
  obtain ⟨h1, ⟨al, h2⟩, h3⟩ := hc
  refine Sures.bind (m := P.attemptOn c.1 b) (Sures.attemptOn hb h2 h3) fun x _ hx => ?_
  subst hx
  rw [← h1]
  exact hk _ _

/-- A value and its view. -/
theorem Sures.view {γ : Type} {g : α → γ} {m : Mend β α} {s : Sure γ} (h : Sures (fun a c => g a = c) m s) :
    Sures Eq (P.bind m fun a => Pure.pure (g a) : P β γ) s := by
  intro p i al hp hk
  have h1 := h p i al hp hk
  show Lands Eq ((m >>= fun a => (Pure.pure (g a) : Mend β γ)) p) _
  rcases hs : s i with ⟨e | c, i'⟩ <;> rw [hs] at h1
  · rw [Mend.bind_err (P.run_eq _ h1.1)]
    exact ⟨rfl, h1.2⟩
  · obtain ⟨⟨a, h2, h3⟩, h4⟩ := h1
    rw [Mend.bind_ok (P.run_eq _ h2)]
    exact ⟨⟨_, rfl, h3⟩, h4⟩

theorem Sures.call (c : Call T) (hc : c.NoDirect) : Sures Eq (c.mended β) c.sure := by
  cases c with
  | array n => exact Sures.array n
  | direct n => exact hc.elim
  | entries n => exact Sures.view (Sures.entries n)
  | branches n => exact Sures.view (Sures.branches n)
  | header => exact Sures.header
  | attr => exact Sures.attr
  | entry => exact Sures.namespaceEntry
  | branch => exact Sures.branchEntry
  | mmapDetail => exact Sures.mmapDetail
  | sampleId => exact Sures.sampleId
  | readValue => exact Sures.readValue
  | readGroup => exact Sures.view Sures.readGroup
  | body ty => exact Sures.view (Sures.body ty)
  | visit => exact Sures.view (Sures.record pairVisitor pairVisitor_pairs)
  | visitWith h => exact Sures.view (Sures.recordWithHeader pairVisitor pairVisitor_pairs h)

theorem recordVisitor_views (a : Record Cow) (md : Metadata) (hu : ∀ t d, a = .unknown t d → t = md.ty) :
    ∃ o, (recordVisitor Cow).apply a md = .ok o ∧ o.view = (a.view, md).1 := by
  cases a with
  | unknown t d => rw [hu t d rfl]; exact ⟨_, rfl, rfl⟩
  | _ => exact ⟨_, rfl, rfl⟩

theorem Sures.prog (prog : Prog α) : prog.NoDirect → ∀ (β : Type) [ParseBuf β] [LawfulEof β], Sures Eq (prog.mended β) prog.sure := by
  have e1 : ∀ {α A : Type} {β : Type} [ParseBuf β] [LawfulEof β] {m : Mend β A} {s : Sure A} {k : A → Prog α}, Sures Eq m s →
      (∀ x, Sures Eq ((k x).mended β) (k x).sure) → Sures Eq (P.bind m fun x => (k x).mended β) (s.bind fun x => (k x).sure) :=
    fun {_ _ _ _ _ m s k} h hk => Sures.bind (m := m) (s := s) h fun x _ e => by subst e; exact hk x
  have e2 : ∀ {α A : Type} {β : Type} [ParseBuf β] [LawfulEof β] {m : Mend β (Cow A)} {s : Sure (List A)} {k : List A → Prog α}, Sures HasData m s →
      (∀ x, Sures Eq ((k x).mended β) (k x).sure) → Sures Eq (P.bind m fun c => (k c.data).mended β) (s.bind fun c => (k c).sure) :=
    fun {_ _ _ _ _ m s k} h hk => Sures.bind (m := m) (s := s) h fun x _ e => by unfold HasData at e; subst e; exact hk _
  induction prog with
  | done a => exact fun _ β _ _ => Sures.pure rfl
  | fail e => exact fun _ β _ _ => Sures.fail e
  | config k ih => exact fun h β _ _ => e1 Sures.config fun x => ih x (h x) β
  | u8 k ih => exact fun h β _ _ => e1 Sures.u8 fun x => ih x (h x) β
  | u16 k ih => exact fun h β _ _ => e1 Sures.u16 fun x => ih x (h x) β
  | u32 k ih => exact fun h β _ _ => e1 Sures.u32 fun x => ih x (h x) β
  | u64 k ih => exact fun h β _ _ => e1 Sures.u64 fun x => ih x (h x) β
  | bytes n k ih => exact fun h β _ _ => e2 (Sures.bytes n) fun x => ih x (h x) β
  | rest k ih => exact fun h β _ _ => e2 Sures.rest fun x => ih x (h x) β
  | restTrimNul k ih =>
    intro h β _ _
    have h1 := e2 (Sures.restTrimNul (β := β)) fun x => ih x (h x) β
    intro p i al hp hk
    have h2 := h1 p i al hp hk
    have h3 : (Sure.bind (ParserM.restTrimNul : Sure (List Byte)) fun c => (k c).sure) i =
        (Sure.rest.bind fun x => (k (trimNul x)).sure) i := by
      show (Sure.bind (Sure.bind Sure.rest fun bs => Sure.pure (trimNul bs)) fun c => (k c).sure) i = _
      unfold Sure.bind
      rcases Sure.rest i with ⟨e | a, i'⟩ <;> rfl
    rw [h3] at h2
    exact h2
  | words n k ih => exact fun h β _ _ => e2 (Sures.u64s n) fun x => ih x (h x) β
  | repeated size item n k ihi ih => exact fun h β _ _ => e1 (Sures.repeated size (ihi h.1 β) n) fun x => ih x (h.2 x) β
  | metadata body k ihb ih => exact fun h β _ _ => Sures.opened Sures.metadata (ihb h.1 Cursor) fun md r => ih md r (h.2 md r) β
  | metadataWith hd body k ihb ih => exact fun h β _ _ => Sures.opened (Sures.metadataWith hd) (ihb h.1 Cursor) fun md r => ih md r (h.2 md r) β
  | call c k ih => exact fun h β _ _ => e1 (Sures.call c h.1) fun x => ih x (h.2 x) β
  | record k ih =>
    intro h β _ _
    exact Sures.bind (m := Mend.record (recordVisitor Cow)) (s := Sure.record) (Sures.record _ recordVisitor_views) fun x r e => by
      have e : x.view = r.1 := e
      rw [← e]
      exact ih x.view (h x.view) β
  | attempt m k ihm ih => exact fun h β _ _ => e1 (Sures.attempt (ihm h.1 β)) fun x => ih x (h.2 x) β

end Perf
