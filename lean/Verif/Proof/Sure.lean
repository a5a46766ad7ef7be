import Verif.Proof.MendedAttr
import Verif.Proof.Flow
import Verif.Spec.Sure
/-!
# The corrected operations do what `Sure` says, and leave the parser where it says
-/
namespace Perf
variable {β : Type} [ParseBuf β] [LawfulEof β] {α α' γ γ' T : Type}
open ParserM

/-- The result of the code is that of `r`, up to `R` on values, and so is its position. -/
def Lands (R : α → α' → Prop) (o : Out β α) (r : Except ParseError α' × Input) : Prop :=
  (match r.1 with
    | .ok c => ∃ a, o.res = .ok a ∧ R a c
    | .error e => o.res = .error (.err e)) ∧
  (∃ al, RepP o.st (r.2.flat al)) ∧ r.2.fin.kind = .eof

/-- The code `m` does what `s` says. -/
def Sures (R : α → α' → Prop) (m : Mend β α) (s : Sure α') : Prop :=
  ∀ p i al, RepP p (i.flat al) → i.fin.kind = .eof → Lands R (m p) (s i)

theorem Sure.bind_ok {m : Sure α} {k : α → Sure α'} {i i' : Input} {a : α} (h : m i = (.ok a, i')) :
    (m >>= k) i = k a i' := by
  show Sure.bind m k i = _
  simp only [Sure.bind, h]

theorem Sure.bind_err {m : Sure α} {k : α → Sure α'} {i i' : Input} {e : ParseError} (h : m i = (.error e, i')) :
    (m >>= k) i = (.error e, i') := by
  show Sure.bind m k i = _
  simp only [Sure.bind, h]

theorem Sures.pure {R : α → α' → Prop} {a : α} {c : α'} (h : R a c) :
    Sures R (Pure.pure a : Mend β α) (Pure.pure c : Sure α') :=
  fun _ _ al hp hk => ⟨⟨a, rfl, h⟩, ⟨al, hp⟩, hk⟩

theorem Sures.bind {R : α → α' → Prop} {R' : γ → γ' → Prop} {m : Mend β α} {s : Sure α'} {k : α → Mend β γ}
    {k' : α' → Sure γ'} (h : Sures R m s) (hk : ∀ a c, R a c → Sures R' (k a) (k' c)) :
    Sures R' (m >>= k) (s >>= k') := by
  intro p i al hp he
  have h1 := h p i al hp he
  rcases hs : s i with ⟨e | c, i'⟩ <;> rw [hs] at h1
  · rw [Sure.bind_err hs, Mend.bind_err (P.run_eq _ h1.1)]
    exact ⟨rfl, h1.2⟩
  · obtain ⟨⟨a, h2, h3⟩, ⟨al', h4⟩, h5⟩ := h1
    rw [Sure.bind_ok hs, Mend.bind_ok (P.run_eq _ h2)]
    exact hk a c h3 _ _ _ h4 h5

theorem Sures.mono {R R' : α → α' → Prop} {m : Mend β α} {s : Sure α'} (h : Sures R m s)
    (hR : ∀ a c, R a c → R' a c) : Sures R' m s := by
  intro p i al hp he
  have h1 := h p i al hp he
  rcases hs : s i with ⟨e | c, i'⟩ <;> rw [hs] at h1
  · exact h1
  · obtain ⟨⟨a, h2, h3⟩, h4⟩ := h1
    exact ⟨⟨a, h2, hR _ _ h3⟩, h4⟩

theorem Sures.fail {R : α → α' → Prop} (e : ParseError) :
    Sures R (ParserM.fail e : Mend β α) (ParserM.fail e : Sure α') :=
  fun _ _ al hp hk => ⟨rfl, ⟨al, hp⟩, hk⟩

theorem Sures.config : Sures Eq (ParserM.config : Mend β ParseConfig) (ParserM.config : Sure ParseConfig) :=
  fun p _ al hp hk => ⟨⟨p.config, rfl, hp.cfg⟩, ⟨al, hp⟩, hk⟩

theorem Sures.ite {R : α → α' → Prop} {c : Prop} [Decidable c] {m m' : Mend β α} {s s' : Sure α'}
    (h : c → Sures R m s) (h' : ¬ c → Sures R m' s') :
    Sures R (if c then m else m') (if c then s else s') := by
  by_cases hc : c
  · rw [if_pos hc, if_pos hc]; exact h hc
  · rw [if_neg hc, if_neg hc]; exact h' hc

/-- `s` is `t`, with the position after an error at the end. -/
def Drained (t : Except ParseError (α × Input)) (s : Except ParseError α × Input) (i : Input) : Prop :=
  match t with
  | .ok (c, i') => s = (.ok c, i') ∧ i'.fin = i.fin
  | .error e => s = (.error e, i.adv i.bytes.length)

/-- Parsers whose errors all come from the end of the input. -/
theorem Sures.drain {R : α → α' → Prop} {m : Mend β α} {t : Ideal α'} {s : Sure α'} (h : Mends R m t)
    (hx : Exhausts (m : P β α)) (hs : ∀ i, Drained (t i) (s i) i) : Sures R m s := by
  intro p i al hp hk
  have h1 := h p i al hp
  have h2 := hs i
  rcases ht : t i with e | ⟨c, i'⟩ <;> rw [ht] at h1 h2
  · have h1 : _ = _ := h1
    have h2 : _ = _ := h2
    have h3 := hx p _ hp hk
    unfold Exhausted at h3
    rw [h1] at h3
    rw [h2]
    exact ⟨h1, ⟨_, h3⟩, hk⟩
  · obtain ⟨a, al', h3, h4, h5⟩ := h1
    obtain ⟨h2, h6⟩ := h2
    rw [h2]
    exact ⟨⟨a, h3, h4⟩, ⟨al', h5⟩, by rw [h6]; exact hk⟩

theorem Ideal.take_sure (n : Nat) (i : Input) : Drained (Ideal.take n i) (Sure.take n i) i := by
  unfold Ideal.take Sure.take
  by_cases h : n ≤ i.bytes.length
  · rw [if_pos h, if_pos h]; exact ⟨rfl, rfl⟩
  · rw [if_neg h, if_neg h]; exact rfl

theorem Sures.array (n : Nat) : Sures Eq (ParserM.array n : Mend β (List Byte)) (ParserM.array n : Sure (List Byte)) := by
  refine Sures.drain (Mends.array n) ?_ (Ideal.take_sure n)
  show Exhausts (Mend.array n : P β _)
  unfold Mend.array
  by_cases h : n = 0
  · rw [if_pos h]; exact Exhausts.pure _
  · rw [if_neg h]; exact Exhausts.array LawfulEof.eof_law n

theorem Sures.bytesLen (n : Nat) :
    Sures (HasLen n) (ParserM.bytes n : Mend β (Cow Byte)) (ParserM.bytes n : Sure (List Byte)) := by
  refine Sures.drain (Mends.bytesLen n) ?_ (Ideal.take_sure n)
  show Exhausts (Mend.bytes n : P β _)
  unfold Mend.bytes
  by_cases h : n = 0
  · rw [if_pos h]; exact Exhausts.pure _
  · rw [if_neg h]; exact Exhausts.bytes LawfulEof.eof_law n

theorem Sures.bytes (n : Nat) : Sures HasData (ParserM.bytes n : Mend β (Cow Byte)) (ParserM.bytes n : Sure (List Byte)) :=
  (Sures.bytesLen n).mono fun _ _ h => h.1

theorem Sures.rest : Sures HasData (ParserM.rest : Mend β (Cow Byte)) (ParserM.rest : Sure (List Byte)) := by
  intro p i al hp hk
  have h1 := Mends.rest p i al hp
  have h2 : (ParserM.rest : Ideal (List Byte)) i = .ok (i.bytes, i.adv i.bytes.length) := if_pos hk
  have h3 : (ParserM.rest : Sure (List Byte)) i = (.ok i.bytes, i.adv i.bytes.length) := by
    show Sure.rest i = _
    unfold Sure.rest
    rw [if_pos hk]
  rw [h2] at h1
  rw [h3]
  obtain ⟨a, al', h3, h4, h5⟩ := h1
  exact ⟨⟨a, h3, h4⟩, ⟨al', h5⟩, hk⟩

theorem Sures.restTrimNul :
    Sures HasData (ParserM.restTrimNul : Mend β (Cow Byte)) (ParserM.restTrimNul : Sure (List Byte)) := by
  show Sures HasData ((ParserM.rest : Mend β (Cow Byte)) >>= fun bytes => (Pure.pure (bytes.truncate (trimNul bytes.data).length) : Mend β (Cow Byte)))
    ((ParserM.rest : Sure (List Byte)) >>= fun bs => Pure.pure (trimNul bs))
  refine Sures.bind Sures.rest fun c l h => Sures.pure ?_
  unfold HasData at *
  rw [Cow.truncate_data, h]
  obtain ⟨t, ht⟩ := trimNul_prefix l
  conv => lhs; arg 2; rw [← ht]
  rw [List.take_left']; rfl

theorem Sures.padded {R : α → α' → Prop} {m : Mend β α} {s : Sure α'} {n : Nat} (hn : n ≠ 0) (h : Sures R m s) :
    Sures R (ParserM.padded n m : Mend β α) (ParserM.padded n s : Sure α') := by
  intro p i al hp hk
  show Lands R (P.padded n m p) (Sure.padded n s i)
  unfold P.padded Sure.padded
  rw [P.ite_neg hn, P.bind_nil (P.offset_run p)]
  have h1 := h p i al hp hk
  rcases hs : s i with ⟨e | c, i'⟩ <;> rw [hs] at h1
  · rw [P.bind_err (P.run_eq _ h1.1)]
    exact ⟨rfl, h1.2⟩
  · obtain ⟨⟨a, h2, h3⟩, ⟨al', h4⟩, h6⟩ := h1
    rw [P.bind_ok (P.run_eq _ h2), P.bind_nil (P.offset_run _)]
    have ho : p.data.offset = i.off := hp.off
    have ho' : (m p).st.data.offset = i'.off := h4.off
    simp only [ho, ho']
    by_cases hz : (i'.off - i.off) % n = 0
    · simp only [if_pos hz]
      exact ⟨⟨a, rfl, h3⟩, ⟨al', h4⟩, h6⟩
    · simp only [if_neg hz]
      generalize n - (i'.off - i.off) % n = t
      have h5 := (P.bytesIgnored_takes h4 t).1
      have h7 := Exhausts.bytesIgnored LawfulEof.eof_law t (m p).st _ h4 h6
      unfold Takes at h5
      have hb : (i'.flat al').s.bytes = i'.bytes := rfl
      rw [hb] at h5
      unfold Sure.bind Sure.take
      by_cases hle : t ≤ i'.bytes.length
      · rw [if_pos hle] at h5
        rw [P.bind_ok (P.run_eq _ h5.1)]
        simp only [if_pos hle]
        exact ⟨⟨a, rfl, h3⟩, ⟨_, h5.2.1⟩, h6⟩
      · rw [if_neg hle] at h5
        have h5 : _ = _ := h5
        unfold Exhausted at h7
        rw [h5] at h7
        rw [P.bind_err (P.run_eq _ h5)]
        simp only [if_neg hle]
        exact ⟨rfl, ⟨_, h7⟩, h6⟩

/-! ## Slices -/

/-- `item` reads one element of the layout `e`. -/
structure SureItem (e : Elem T) (s : Sure T) : Prop where
  pos : 0 < e.size
  item : ∀ i : Input, e.size ≤ i.bytes.length →
    s i = (.ok (e.dec i.cfg.endian.conv64 (i.bytes.take e.size)), i.adv e.size)
  short : ∀ i : Input, i.bytes.length < e.size → s i = (.error i.fin, i.adv i.bytes.length)
  congr : ∀ (c c' : List Byte → U64), (∀ bs, bs.length = 8 → c bs = c' bs) → ∀ bs, bs.length = e.size →
    e.dec c bs = e.dec c' bs

theorem Sure.repeated_ok {e : Elem T} {item : Sure T} (h : SureItem e item) : ∀ (n : Nat) (i : Input),
    n * e.size ≤ i.bytes.length →
    Sure.repeated item n i = (.ok (e.decodeAll i.cfg.endian.conv64 n i.bytes), i.adv (n * e.size)) := by
  intro n
  induction n with
  | zero => intro i _; simp only [Nat.zero_mul, Input.adv_zero]; rfl
  | succ n ih =>
    intro i hle
    have hs : (n + 1) * e.size = e.size + n * e.size := by rw [Nat.add_mul]; omega
    unfold Sure.repeated
    rw [Sure.bind_ok (h.item i (by omega)), Sure.bind_ok (ih (i.adv e.size) (by simp [Input.adv]; omega)), Input.adv_adv, hs]
    rfl

theorem SureItem.decodeAll_congr {e : Elem T} {item : Sure T} (h : SureItem e item) {c c' : List Byte → U64}
    (hc : ∀ bs, bs.length = 8 → c bs = c' bs) : ∀ (n : Nat) (bs : List Byte), n * e.size ≤ bs.length →
    e.decodeAll c n bs = e.decodeAll c' n bs := by
  intro n
  induction n with
  | zero => intros; rfl
  | succ n ih =>
    intro bs hl
    have hs : (n + 1) * e.size = e.size + n * e.size := by rw [Nat.add_mul]; omega
    simp only [Elem.decodeAll]
    rw [h.congr c c' hc _ (by rw [List.length_take]; omega), ih _ (by rw [List.length_drop]; omega)]

theorem Sures.repeatedLoop {item : Mend β T} {itemS : Sure T} (h : Sures Eq item itemS) : ∀ n : Nat,
    Sures Eq (P.repeatedLoop item n) (Sure.repeated itemS n) := by
  intro n
  induction n with
  | zero => exact Sures.pure rfl
  | succ n ih =>
    refine Sures.bind (m := item) h fun x x' hx => Sures.bind (m := P.repeatedLoop item n) ih fun xs xs' hxs => Sures.pure ?_
    rw [hx, hxs]

theorem Sures.repeated {item : Mend β T} {itemS : Sure T} (size : Nat) (h : Sures Eq item itemS) (n : Nat) :
    Sures Eq (P.repeated size item n) (Sure.repeated itemS n) := by
  intro p i al hp hk
  unfold P.repeated
  obtain ⟨b, hb, _⟩ := P.safeCapacityBound_run size p
  rw [P.bind_nil hb, P.bind_ok (P.alloc_run _ p)]
  exact Sures.repeatedLoop h n p i al hp hk

theorem Mend.sliceDirect_end {p : Parser β} {i : Input} {al : Al} (hp : RepP p (i.flat al)) (hk : i.fin.kind = .eof) (he : i.bytes = [])
    (e : Elem T) (n : Nat) {q : Parser β} {x : Fault} {l : List Nat}
    (h : (Mend.sliceDirect e n : P β (Option (List T))) p = ⟨.error x, q, l⟩) : RepP q (i.flat al) := by
  obtain ⟨q', hq, hr, _⟩ := P.chunk_eof LawfulEof.eof_law hp he hk
  have hcfg : P.config p = ⟨.ok i.cfg, p, []⟩ := by rw [P.config_run, hp.cfg]; rfl
  unfold Mend.sliceDirect at h
  rw [P.bind_nil hcfg] at h
  by_cases hn : i.cfg.endian.isNative = true
  · rw [P.ite_neg (by simp [hn]), P.bind_err hq] at h
    cases h; exact hr
  · rw [P.ite_pos (by simp [hn])] at h
    have : (Except.ok none : Except Fault (Option (List T))) = .error x := congrArg Out.res h
    cases this

theorem Sures.slice {e : Elem T} {item : Mend β T} {itemS : Sure T} (h : Sures Eq item itemS) (hi : SureItem e itemS)
    (n : Nat) : Sures HasData (ParserM.slice e item n : Mend β (Cow T)) (ParserM.slice e itemS n : Sure (List T)) := by
  intro p i al hp hk
  show Lands HasData (Mend.slice e item n p) (Sure.slice e itemS n i)
  unfold Mend.slice Sure.slice
  by_cases hb : n * e.size ≥ usizeLimit
  · rw [P.ite_pos hb, if_pos hb]
    exact ⟨rfl, ⟨al, hp⟩, hk⟩
  rw [P.ite_neg hb, if_neg hb]
  by_cases hn : n = 0
  · rw [P.ite_pos hn]
    subst hn
    exact ⟨⟨.borrowed [], rfl, rfl⟩, ⟨al, hp⟩, hk⟩
  rw [P.ite_neg hn]
  rcases Mend.sliceDirect_cases hp e n with ⟨he, q, hq⟩ | ⟨q, al', hq, hrq⟩ | ⟨hnat, hle, q, al', hq, hrq⟩
  · rw [P.bind_err hq]
    have h1 : Sure.repeated itemS n i = (.error i.fin, i) := by
      cases n with
      | zero => exact absurd rfl hn
      | succ n =>
        unfold Sure.repeated
        rw [Sure.bind_err (hi.short i (by rw [he]; exact hi.pos)), he, List.length_nil, Input.adv_zero]
    rw [h1]
    exact ⟨rfl, ⟨al, Mend.sliceDirect_end hp hk he e n hq⟩, hk⟩
  · rw [P.bind_nil hq]
    have h1 := Sures.bind (Sures.repeated e.size h n) (fun (v : List T) c (hv : v = c) =>
      Sures.pure (R := HasData) (a := Cow.owned v) (c := c) hv) q i al' hrq hk
    have h2 : (Sure.repeated itemS n >>= fun c => Pure.pure c) i = Sure.repeated itemS n i := by
      rcases hs : Sure.repeated itemS n i with ⟨er | c, i'⟩
      · rw [Sure.bind_err hs]
      · rw [Sure.bind_ok hs]; rfl
    rw [h2] at h1
    exact h1
  · rw [P.bind_nil hq, Sure.repeated_ok hi n i hle]
    refine ⟨⟨_, rfl, ?_⟩, ⟨al', hrq⟩, hk⟩
    exact (hi.decodeAll_congr (hp.wf hnat) n _ hle).symm

theorem Sures.splitAt {c : Cow T} {l : List T} {n k : Nat} (h : HasLen k c l) (hle : n ≤ k) :
    Sures (fun a b => HasData a.1 b.1 ∧ HasData a.2 b.2)
      (ParserM.cowSplitAt c n : Mend β (Cow T × Cow T)) (ParserM.cowSplitAt l n : Sure (List T × List T)) := by
  obtain ⟨h1, h2⟩ := h
  subst h1
  intro p i al hp hk
  show Lands _ (Mend.splitCow c n p) _
  unfold Mend.splitCow
  rw [P.ite_pos (by omega)]
  cases c with
  | borrowed d => exact ⟨⟨_, rfl, ⟨rfl, rfl⟩⟩, ⟨al, hp⟩, hk⟩
  | owned d => exact ⟨⟨_, rfl, ⟨rfl, rfl⟩⟩, ⟨al, hp⟩, hk⟩

end Perf
