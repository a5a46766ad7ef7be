import Verif.Proof.Dispatch
import Verif.Spec.Ideal
/-!
# The corrected operations do what the ideal ones say, on every input
-/
namespace Perf
variable {β : Type} [ParseBuf β] [Lawful β] {α α' γ γ' T : Type}
open ParserM

/-- The input at some place in memory. -/
def Input.flat (i : Input) (al : Al) : Flat := ⟨⟨i.bytes, al, i.fin⟩, i.off, i.cfg⟩

theorem Input.flat_adv (i : Input) (al : Al) (k : Nat) : (i.flat al).adv k = (i.adv k).flat (al.add k) := rfl

/-- The result `o` of the code is what the ideal outcome says, up to `R` on values. -/
def Yields (R : α → α' → Prop) (o : Out β α) : Except ParseError (α' × Input) → Prop
  | .error e => o.res = .error (.err e)
  | .ok (c, i') => ∃ a al, o.res = .ok a ∧ R a c ∧ RepP o.st (i'.flat al)

/-- The code `m` does what the ideal parser `s` says. -/
def Mends (R : α → α' → Prop) (m : Mend β α) (s : Ideal α') : Prop :=
  ∀ p i al, RepP p (i.flat al) → Yields R (m p) (s i)

theorem Mends.pure {R : α → α' → Prop} {a : α} {c : α'} (h : R a c) :
    Mends R (Pure.pure a : Mend β α) (Pure.pure c : Ideal α') :=
  fun _ _ al hp => ⟨a, al, rfl, h, hp⟩

theorem Ideal.bind_ok {m : Ideal α} {k : α → Ideal α'} {i i' : Input} {a : α} (h : m i = .ok (a, i')) :
    (m >>= k) i = k a i' := by
  show Ideal.bind m k i = _
  simp only [Ideal.bind, h]

theorem Ideal.bind_err {m : Ideal α} {k : α → Ideal α'} {i : Input} {e : ParseError} (h : m i = .error e) :
    (m >>= k) i = .error e := by
  show Ideal.bind m k i = _
  simp only [Ideal.bind, h]

omit [Lawful β] in
theorem Mend.bind_ok {m : Mend β α} {k : α → Mend β γ} {p q : Parser β} {a : α} {l : List Nat} (h : m p = ⟨.ok a, q, l⟩) :
    (m >>= k) p = ⟨(k a q).res, (k a q).st, l ++ (k a q).log⟩ := @P.bind_ok β α γ m k p q a l h

omit [Lawful β] in
theorem Mend.bind_err {m : Mend β α} {k : α → Mend β γ} {p q : Parser β} {e : Fault} {l : List Nat} (h : m p = ⟨.error e, q, l⟩) :
    (m >>= k) p = ⟨.error e, q, l⟩ := @P.bind_err β α γ m k p q e l h

theorem Mends.bind {R : α → α' → Prop} {R' : γ → γ' → Prop} {m : Mend β α} {s : Ideal α'} {k : α → Mend β γ}
    {k' : α' → Ideal γ'} (h : Mends R m s) (hk : ∀ a c, R a c → Mends R' (k a) (k' c)) :
    Mends R' (m >>= k) (s >>= k') := by
  intro p i al hp
  have h1 := h p i al hp
  rcases hs : s i with e | ⟨c, i'⟩
  · rw [hs] at h1
    rw [Ideal.bind_err hs, Mend.bind_err (P.run_eq _ h1)]
    rfl
  · rw [hs] at h1
    obtain ⟨a, al', h2, h3, h4⟩ := h1
    rw [Ideal.bind_ok hs, Mend.bind_ok (P.run_eq _ h2)]
    have h5 := hk a c h3 _ _ _ h4
    rcases hs' : k' c i' with e | ⟨c', i''⟩
    · rw [hs'] at h5; exact h5
    · rw [hs'] at h5; exact h5

theorem Mends.mono {R R' : α → α' → Prop} {m : Mend β α} {s : Ideal α'} (h : Mends R m s)
    (hR : ∀ a c, R a c → R' a c) : Mends R' m s := by
  intro p i al hp
  have h1 := h p i al hp
  rcases hs : s i with e | ⟨c, i'⟩
  · rw [hs] at h1; exact h1
  · rw [hs] at h1
    obtain ⟨a, al', h2, h3, h4⟩ := h1
    exact ⟨a, al', h2, hR _ _ h3, h4⟩

theorem Mends.fail {R : α → α' → Prop} (e : ParseError) :
    Mends R (ParserM.fail e : Mend β α) (ParserM.fail e : Ideal α') :=
  fun _ _ _ _ => rfl

theorem Mends.config : Mends Eq (ParserM.config : Mend β ParseConfig) (ParserM.config : Ideal ParseConfig) :=
  fun p _ al hp => ⟨p.config, al, rfl, hp.cfg, hp⟩

theorem Mends.ite {R : α → α' → Prop} {c : Prop} [Decidable c] {m m' : Mend β α} {s s' : Ideal α'}
    (h : c → Mends R m s) (h' : ¬ c → Mends R m' s') :
    Mends R (if c then m else m') (if c then s else s') := by
  by_cases hc : c
  · rw [if_pos hc, if_pos hc]; exact h hc
  · rw [if_neg hc, if_neg hc]; exact h' hc

theorem Ideal.take_zero (i : Input) : Ideal.take 0 i = .ok ([], i) := by
  unfold Ideal.take Input.adv
  simp

/-- Taking at least one byte. -/
theorem Yields.takes {p : Parser β} {i : Input} {al : Al} {n : Nat} {o : Out β α} {R : α → List Byte → Prop} (hn : n ≠ 0)
    (h : TakesNe p (i.flat al) n o (fun a => R a (i.bytes.take n))) : Yields R o (Ideal.take n i) := by
  unfold TakesNe at h
  unfold Ideal.take
  have hb : (i.flat al).s.bytes = i.bytes := rfl
  rw [hb] at h
  by_cases he : i.bytes = []
  · rw [if_pos he] at h
    rw [if_neg (by rw [he]; simpa using hn)]
    exact h
  · rw [if_neg he] at h
    obtain ⟨a, h1, h2⟩ := h
    unfold Takes at h2
    rw [hb] at h2
    by_cases hle : n ≤ i.bytes.length
    · rw [if_pos hle] at h2 ⊢; exact ⟨a, _, h2.1, h1, h2.2.1⟩
    · rw [if_neg hle] at h2 ⊢; exact h2

theorem Mends.array (n : Nat) : Mends Eq (ParserM.array n : Mend β (List Byte)) (ParserM.array n : Ideal (List Byte)) := by
  intro p i al hp
  show Yields Eq (Mend.array n p) (Ideal.take n i)
  unfold Mend.array
  by_cases hn : n = 0
  · rw [P.ite_pos hn]
    subst hn
    rw [Ideal.take_zero]
    exact ⟨[], al, rfl, rfl, hp⟩
  · rw [P.ite_neg hn]
    exact Yields.takes hn (P.array_takes hp n).1

/-- A container holds these elements, `n` of them. -/
def HasLen (n : Nat) (c : Cow T) (l : List T) : Prop := c.data = l ∧ l.length = n

theorem Mends.bytesLen (n : Nat) :
    Mends (HasLen n) (ParserM.bytes n : Mend β (Cow Byte)) (ParserM.bytes n : Ideal (List Byte)) := by
  intro p i al hp
  show Yields (HasLen n) (Mend.bytes n p) (Ideal.take n i)
  unfold Mend.bytes
  by_cases hn : n = 0
  · rw [P.ite_pos hn]
    subst hn
    rw [Ideal.take_zero]
    exact ⟨.borrowed [], al, rfl, ⟨rfl, rfl⟩, hp⟩
  · rw [P.ite_neg hn]
    have h : Yields HasData (P.bytes n p) (Ideal.take n i) := Yields.takes hn (P.bytes_takes hp n).1
    unfold Ideal.take at h ⊢
    by_cases hle : n ≤ i.bytes.length
    · rw [if_pos hle] at h ⊢
      obtain ⟨a, al', h1, h2, h3⟩ := h
      exact ⟨a, al', h1, ⟨h2, by rw [List.length_take]; omega⟩, h3⟩
    · rw [if_neg hle] at h ⊢
      exact h

theorem Mends.bytes (n : Nat) : Mends HasData (ParserM.bytes n : Mend β (Cow Byte)) (ParserM.bytes n : Ideal (List Byte)) :=
  (Mends.bytesLen n).mono fun _ _ h => h.1

omit [Lawful β] in
theorem Mend.rest_some {p q : Parser β} {c : Chunk} (hq : P.chunk p = ⟨.ok c, q, []⟩) :
    (Mend.rest : P β (Cow Byte)) p = P.rest p := by
  unfold P.rest Mend.rest
  rw [P.bind_nil hq, P.bind_nil (P.chunkResult_ok hq)]

theorem Mends.rest {β : Type} [ParseBuf β] [LawfulEof β] :
    Mends HasData (ParserM.rest : Mend β (Cow Byte)) (ParserM.rest : Ideal (List Byte)) := by
  intro p i al hp
  show Yields HasData (Mend.rest p) (Ideal.rest i)
  unfold Mend.rest Ideal.rest
  have hb : (i.flat al).s.bytes = i.bytes := rfl
  by_cases he : i.bytes = []
  · obtain ⟨q, hq⟩ := P.chunk_none hp he
    rw [P.bind_nil (P.chunkResult_err hq)]
    by_cases hk : i.fin.kind = .eof
    · obtain ⟨q', hq', h1, h2⟩ := P.chunk_eof LawfulEof.eof_law hp he hk
      have : q' = q := congrArg Out.st (hq'.symm.trans hq)
      subst this
      show Yields HasData ((if i.fin.kind = .eof then Pure.pure (.borrowed []) else P.fail i.fin : P β (Cow Byte)) q') _
      rw [P.ite_pos hk, if_pos hk, he]
      refine ⟨.borrowed [], al, rfl, rfl, ?_⟩
      have h0 : i.adv 0 = i := by unfold Input.adv; simp
      rw [List.length_nil, h0]
      exact h1
    · show Yields HasData ((if i.fin.kind = .eof then Pure.pure (.borrowed []) else P.fail i.fin : P β (Cow Byte)) q) _
      rw [P.ite_neg hk, if_neg hk]
      rfl
  · have h := (P.rest_takes hp).1
    rw [hb, if_neg he] at h
    obtain ⟨c, q, hq, _⟩ := P.chunk_some hp he
    unfold TakesRest at h
    rw [hb] at h
    show Yields HasData (Mend.rest p) _
    rw [Mend.rest_some hq]
    have hf : (i.flat al).s.fin = i.fin := rfl
    rw [hf] at h
    by_cases hk : i.fin.kind = .eof
    · rw [if_pos hk] at h ⊢
      obtain ⟨c, h1, h2, h3⟩ := h
      exact ⟨c, _, h1, h2, (h3 LawfulEof.eof_law).1⟩
    · rw [if_neg hk] at h ⊢
      exact h

theorem Mends.restTrimNul {β : Type} [ParseBuf β] [LawfulEof β] :
    Mends HasData (ParserM.restTrimNul : Mend β (Cow Byte)) (ParserM.restTrimNul : Ideal (List Byte)) := by
  show Mends HasData ((ParserM.rest : Mend β (Cow Byte)) >>= fun bytes => (Pure.pure (bytes.truncate (trimNul bytes.data).length) : Mend β (Cow Byte)))
    ((ParserM.rest : Ideal (List Byte)) >>= fun bs => Pure.pure (trimNul bs))
  refine Mends.bind Mends.rest fun c l h => Mends.pure ?_
  unfold HasData at *
  rw [Cow.truncate_data, h]
  obtain ⟨t, ht⟩ := trimNul_prefix l
  conv => lhs; arg 2; rw [← ht]
  rw [List.take_left']; rfl

theorem Mends.padded {R : α → α' → Prop} {m : Mend β α} {s : Ideal α'} {n : Nat} (hn : n ≠ 0) (h : Mends R m s) :
    Mends R (ParserM.padded n m : Mend β α) (ParserM.padded n s : Ideal α') := by
  intro p i al hp
  show Yields R (P.padded n m p) (Ideal.padded n s i)
  unfold P.padded Ideal.padded
  rw [P.ite_neg hn, P.bind_nil (P.offset_run p)]
  have h1 := h p i al hp
  rcases hs : s i with e | ⟨c, i'⟩
  · rw [hs] at h1
    rw [P.bind_err (P.run_eq _ h1)]
    rfl
  · rw [hs] at h1
    obtain ⟨a, al', h2, h3, h4⟩ := h1
    rw [P.bind_ok (P.run_eq _ h2), P.bind_nil (P.offset_run _)]
    have ho : p.data.offset = i.off := hp.off
    have ho' : (m p).st.data.offset = i'.off := h4.off
    simp only [ho, ho']
    by_cases hz : (i'.off - i.off) % n = 0
    · simp only [if_pos hz]
      exact ⟨a, al', rfl, h3, h4⟩
    · simp only [if_neg hz]
      have h5 := (P.bytesIgnored_takes h4 (n - (i'.off - i.off) % n)).1
      unfold Takes at h5
      have hb : (i'.flat al').s.bytes = i'.bytes := rfl
      rw [hb] at h5
      unfold Ideal.take
      by_cases hle : n - (i'.off - i.off) % n ≤ i'.bytes.length
      · rw [if_pos hle] at h5 ⊢
        rw [P.bind_ok (P.run_eq _ h5.1)]
        exact ⟨a, _, rfl, h3, h5.2.1⟩
      · rw [if_neg hle] at h5 ⊢
        rw [P.bind_err (P.run_eq _ h5)]
        exact rfl

/-! ## Slices -/

/-- `item` reads one element of the layout `e`. -/
structure IdealItem (e : Elem T) (s : Ideal T) : Prop where
  pos : 0 < e.size
  item : ∀ i : Input, e.size ≤ i.bytes.length →
    s i = .ok (e.dec i.cfg.endian.conv64 (i.bytes.take e.size), i.adv e.size)
  short : ∀ i : Input, i.bytes.length < e.size → s i = .error i.fin
  congr : ∀ (c c' : List Byte → U64), (∀ bs, bs.length = 8 → c bs = c' bs) → ∀ bs, bs.length = e.size →
    e.dec c bs = e.dec c' bs

theorem Input.adv_adv (i : Input) (j k : Nat) : (i.adv j).adv k = i.adv (j + k) := by
  unfold Input.adv
  simp [Nat.add_assoc]

theorem Input.adv_zero (i : Input) : i.adv 0 = i := by unfold Input.adv; simp

theorem Ideal.repeated_ok {e : Elem T} {item : Ideal T} (h : IdealItem e item) : ∀ (n : Nat) (i : Input),
    n * e.size ≤ i.bytes.length →
    Ideal.repeated item n i = .ok (e.decodeAll i.cfg.endian.conv64 n i.bytes, i.adv (n * e.size)) := by
  intro n
  induction n with
  | zero => intro i _; simp only [Nat.zero_mul, Input.adv_zero]; rfl
  | succ n ih =>
    intro i hle
    have hs : (n + 1) * e.size = e.size + n * e.size := by rw [Nat.add_mul]; omega
    unfold Ideal.repeated
    rw [Ideal.bind_ok (h.item i (by omega)), Ideal.bind_ok (ih (i.adv e.size) (by simp [Input.adv]; omega)), Input.adv_adv, hs]
    rfl

theorem IdealItem.decodeAll_congr {e : Elem T} {item : Ideal T} (h : IdealItem e item) {c c' : List Byte → U64}
    (hc : ∀ bs, bs.length = 8 → c bs = c' bs) : ∀ (n : Nat) (bs : List Byte), n * e.size ≤ bs.length →
    e.decodeAll c n bs = e.decodeAll c' n bs := by
  intro n
  induction n with
  | zero => intros; rfl
  | succ n ih =>
    intro bs hl
    have hs : (n + 1) * e.size = e.size + n * e.size := by rw [Nat.add_mul]; omega
    simp only [Elem.decodeAll]
    rw [h.congr c c' hc _ (by rw [List.length_take]; omega), ih _ (by rw [List.length_drop]; omega)]

theorem Mends.repeatedLoop {item : Mend β T} {itemS : Ideal T} (h : Mends Eq item itemS) : ∀ n : Nat,
    Mends Eq (P.repeatedLoop item n) (Ideal.repeated itemS n) := by
  intro n
  induction n with
  | zero => exact Mends.pure rfl
  | succ n ih =>
    refine Mends.bind (m := item) h fun x x' hx => Mends.bind (m := P.repeatedLoop item n) ih fun xs xs' hxs => Mends.pure ?_
    rw [hx, hxs]

theorem Mends.repeated {item : Mend β T} {itemS : Ideal T} (size : Nat) (h : Mends Eq item itemS) (n : Nat) :
    Mends Eq (P.repeated size item n) (Ideal.repeated itemS n) := by
  intro p i al hp
  unfold P.repeated
  obtain ⟨b, hb, _⟩ := P.safeCapacityBound_run size p
  rw [P.bind_nil hb, P.bind_ok (P.alloc_run _ p)]
  have h1 := Mends.repeatedLoop h n p i al hp
  rcases hs : Ideal.repeated itemS n i with e | ⟨c, f'⟩
  · rw [hs] at h1; exact h1
  · rw [hs] at h1; exact h1

/-- The direct way either leaves the input alone, or takes the elements, or reports its end. -/
theorem Mend.sliceDirect_cases {p : Parser β} {i : Input} {al : Al} (hp : RepP p (i.flat al)) (e : Elem T) (n : Nat) :
    (i.bytes = [] ∧ ∃ q, (Mend.sliceDirect e n : P β (Option (List T))) p = ⟨.error (.err i.fin), q, []⟩) ∨
    (∃ q al', (Mend.sliceDirect e n : P β (Option (List T))) p = ⟨.ok none, q, []⟩ ∧ RepP q (i.flat al')) ∨
    (i.cfg.endian.isNative = true ∧ n * e.size ≤ i.bytes.length ∧ ∃ q al', (Mend.sliceDirect e n : P β (Option (List T))) p =
      ⟨.ok (some (e.decodeAll (fromOrder i.cfg.host 64) n i.bytes)), q, []⟩ ∧ RepP q ((i.adv (n * e.size)).flat al')) := by
  have hcfg : P.config p = ⟨.ok i.cfg, p, []⟩ := by rw [P.config_run, hp.cfg]; rfl
  unfold Mend.sliceDirect
  rw [P.bind_nil hcfg]
  by_cases hn : i.cfg.endian.isNative = true
  · rw [P.ite_neg (by simp [hn])]
    by_cases he : i.bytes = []
    · obtain ⟨q, hq⟩ := P.chunk_none hp he
      rw [P.bind_err hq]
      exact .inl ⟨he, q, rfl⟩
    · obtain ⟨c, q, hq, hcne, hpre, hal, hrep, hst, hm, hadv⟩ := P.chunk_some hp he
      rw [P.bind_nil hq]
      refine .inr ?_
      cases hloc : c.loc with
      | temporary => exact .inl ⟨q, al, rfl, hrep⟩
      | external addr =>
        by_cases hc : c.data.length < n * e.size ∨ addr % 8 ≠ 0
        · simp only [if_pos hc]
          exact .inl ⟨q, al, rfl, hrep⟩
        · simp only [if_neg hc]
          have hle : n * e.size ≤ c.data.length := by omega
          obtain ⟨q', hq', hrep', _⟩ := hadv (n * e.size) hle
          refine .inr ⟨hn, Nat.le_trans hle hpre.length_le, q', _, ?_, hrep'⟩
          rw [P.bind_nil hq', P.pure_run, List.take_eq_prefix hpre hle, Elem.decodeAll_take _ _ _ _ _ (Nat.le_refl _)]
          rfl
  · rw [P.ite_pos (by simp [hn])]
    exact .inr (.inl ⟨p, al, rfl, hp⟩)

theorem Ideal.repeated_empty {e : Elem T} {item : Ideal T} (h : IdealItem e item) {n : Nat} (hn : n ≠ 0) (i : Input)
    (he : i.bytes = []) : Ideal.repeated item n i = .error i.fin := by
  cases n with
  | zero => exact absurd rfl hn
  | succ n =>
    unfold Ideal.repeated
    rw [Ideal.bind_err (h.short i (by rw [he]; exact h.pos))]

theorem Mends.slice {e : Elem T} {item : Mend β T} {itemS : Ideal T} (h : Mends Eq item itemS) (hi : IdealItem e itemS)
    (n : Nat) : Mends HasData (ParserM.slice e item n : Mend β (Cow T)) (ParserM.slice e itemS n : Ideal (List T)) := by
  intro p i al hp
  show Yields HasData (Mend.slice e item n p) (Ideal.slice e itemS n i)
  unfold Mend.slice Ideal.slice
  by_cases hb : n * e.size ≥ usizeLimit
  · rw [P.ite_pos hb, if_pos hb]
    rfl
  rw [P.ite_neg hb, if_neg hb]
  by_cases hn : n = 0
  · rw [P.ite_pos hn]
    subst hn
    exact ⟨.borrowed [], al, rfl, rfl, hp⟩
  rw [P.ite_neg hn]
  rcases Mend.sliceDirect_cases hp e n with ⟨he, q, hq⟩ | ⟨q, al', hq, hrq⟩ | ⟨hnat, hle, q, al', hq, hrq⟩
  · rw [P.bind_err hq, Ideal.repeated_empty hi hn i he]
    rfl
  · rw [P.bind_nil hq]
    have h1 := Mends.repeated e.size h n q i al' hrq
    rcases hs : Ideal.repeated itemS n i with er | ⟨c, f'⟩
    · rw [hs] at h1
      simp only
      rw [P.bind_err (P.run_eq _ h1)]
      rfl
    · rw [hs] at h1
      obtain ⟨a, al'', h2, h3, h4⟩ := h1
      simp only
      rw [P.bind_ok (P.run_eq _ h2)]
      exact ⟨.owned a, al'', rfl, h3, h4⟩
  · rw [P.bind_nil hq, Ideal.repeated_ok hi n i hle]
    refine ⟨_, al', rfl, ?_, hrq⟩
    exact (hi.decodeAll_congr (hp.wf hnat) n _ hle).symm

theorem Mends.splitAt {c : Cow T} {l : List T} {n k : Nat} (h : HasLen k c l) (hle : n ≤ k) :
    Mends (fun a b => HasData a.1 b.1 ∧ HasData a.2 b.2)
      (ParserM.cowSplitAt c n : Mend β (Cow T × Cow T)) (ParserM.cowSplitAt l n : Ideal (List T × List T)) := by
  obtain ⟨h1, h2⟩ := h
  subst h1
  intro p i al hp
  show Yields _ (Mend.splitCow c n p) _
  unfold Mend.splitCow
  rw [P.ite_pos (by omega)]
  cases c with
  | borrowed d => exact ⟨_, al, rfl, ⟨rfl, rfl⟩, hp⟩
  | owned d => exact ⟨_, al, rfl, ⟨rfl, rfl⟩, hp⟩

end Perf
