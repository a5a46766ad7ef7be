import Verif.Proof.MendedTop
import Verif.Model.MendedNarrow
/-!
# The corrected operations on any machine do what the ideal ones say, if the input is small enough for it
-/
namespace Perf
variable {w : Platform} {β : Type} [ParseBuf β] [Lawful β] {α α' γ γ' T : Type}
open ParserM

/-- The input fits into the memory of the machine, which has at most 64 bits, and it ends. -/
def Suited (w : Platform) (i : Input) : Prop := i.bytes.length < w.limit ∧ i.fin.kind = .eof ∧ w.bits ≤ 64

theorem Suited.limit {i : Input} (h : Suited w i) : w.limit ≤ usizeLimit := Nat.pow_le_pow_right (by decide) h.2.2

theorem Suited.adv {i : Input} (h : Suited w i) (k : Nat) : Suited w (i.adv k) :=
  ⟨by have := h.1; unfold Input.adv; simp only [List.length_drop]; omega, h.2⟩

/-- The machine's error in place of the ideal one: the same, or that the record is invalid instead of too short. -/
def Instead (e e' : ParseError) : Prop := e' = e ∨ e.kind = .eof ∧ e'.kind = .invalidRecord

/-- The result `o` of the code is what the ideal outcome says, up to `R` on values and `Instead` on errors. -/
def SuitsOut (w : Platform) (R : α → α' → Prop) (o : Out β α) : Except ParseError (α' × Input) → Prop
  | .error e => ∃ e', o.res = .error (.err e') ∧ Instead e e'
  | .ok (c, i') => ∃ a al, o.res = .ok a ∧ R a c ∧ RepP o.st (i'.flat al) ∧ Suited w i'

/-- The code `m` does what the ideal parser `s` says. -/
def Suits (R : α → α' → Prop) (m : MendOn w β α) (s : Ideal α') : Prop :=
  ∀ p i al, RepP p (i.flat al) → Suited w i → SuitsOut w R (m p) (s i)

theorem Suits.pure {R : α → α' → Prop} {a : α} {c : α'} (h : R a c) :
    Suits R (Pure.pure a : MendOn w β α) (Pure.pure c : Ideal α') :=
  fun _ _ al hp hs => ⟨a, al, rfl, h, hp, hs⟩

omit [Lawful β] in
theorem MendOn.bind_ok {m : MendOn w β α} {k : α → MendOn w β γ} {p q : Parser β} {a : α} {l : List Nat} (h : m p = ⟨.ok a, q, l⟩) :
    (m >>= k) p = ⟨(k a q).res, (k a q).st, l ++ (k a q).log⟩ := @P.bind_ok β α γ m k p q a l h

omit [Lawful β] in
theorem MendOn.bind_err {m : MendOn w β α} {k : α → MendOn w β γ} {p q : Parser β} {e : Fault} {l : List Nat} (h : m p = ⟨.error e, q, l⟩) :
    (m >>= k) p = ⟨.error e, q, l⟩ := @P.bind_err β α γ m k p q e l h

theorem Suits.bind {R : α → α' → Prop} {R' : γ → γ' → Prop} {m : MendOn w β α} {s : Ideal α'} {k : α → MendOn w β γ}
    {k' : α' → Ideal γ'} (h : Suits R m s) (hk : ∀ a c, R a c → Suits R' (k a) (k' c)) :
    Suits R' (m >>= k) (s >>= k') := by
  intro p i al hp hi
  have h1 := h p i al hp hi
  rcases hs : s i with e | ⟨c, i'⟩
  · rw [hs] at h1
    obtain ⟨e', h1, h2⟩ := h1
    rw [Ideal.bind_err hs, MendOn.bind_err (P.run_eq _ h1)]
    exact ⟨e', rfl, h2⟩
  · rw [hs] at h1
    obtain ⟨a, al', h2, h3, h4, h5⟩ := h1
    rw [Ideal.bind_ok hs, MendOn.bind_ok (P.run_eq _ h2)]
    have h5 := hk a c h3 _ _ _ h4 h5
    rcases hs' : k' c i' with e | ⟨c', i''⟩
    · rw [hs'] at h5; exact h5
    · rw [hs'] at h5; exact h5

theorem Suits.mono {R R' : α → α' → Prop} {m : MendOn w β α} {s : Ideal α'} (h : Suits R m s)
    (hR : ∀ a c, R a c → R' a c) : Suits R' m s := by
  intro p i al hp hi
  have h1 := h p i al hp hi
  rcases hs : s i with e | ⟨c, i'⟩
  · rw [hs] at h1; exact h1
  · rw [hs] at h1
    obtain ⟨a, al', h2, h3, h4⟩ := h1
    exact ⟨a, al', h2, hR _ _ h3, h4⟩

/-- What does not look at the machine. -/
theorem Suits.of_mends {R : α → α' → Prop} {m : MendOn w β α} {s : Ideal α'} (h : Mends R (m : P β α) s)
    (hs : ∀ i a i', Suited w i → s i = .ok (a, i') → Suited w i') : Suits R m s := by
  intro p i al hp hi
  have h1 := h p i al hp
  rcases he : s i with e | ⟨c, i'⟩
  · rw [he] at h1; exact ⟨e, h1, .inl rfl⟩
  · rw [he] at h1
    obtain ⟨a, al', h2, h3, h4⟩ := h1
    exact ⟨a, al', h2, h3, h4, hs i c i' hi he⟩

theorem Suits.fail {R : α → α' → Prop} (e : ParseError) :
    Suits R (ParserM.fail e : MendOn w β α) (ParserM.fail e : Ideal α') :=
  fun _ _ _ _ _ => ⟨e, rfl, .inl rfl⟩

theorem Suits.config : Suits Eq (ParserM.config : MendOn w β ParseConfig) (ParserM.config : Ideal ParseConfig) :=
  fun p _ al hp hi => ⟨p.config, al, rfl, hp.cfg, hp, hi⟩

theorem Suits.ite {R : α → α' → Prop} {c : Prop} [Decidable c] {m m' : MendOn w β α} {s s' : Ideal α'}
    (h : c → Suits R m s) (h' : ¬ c → Suits R m' s') :
    Suits R (if c then m else m') (if c then s else s') := by
  by_cases hc : c
  · rw [if_pos hc, if_pos hc]; exact h hc
  · rw [if_neg hc, if_neg hc]; exact h' hc

theorem Suited.take {n : Nat} (i : Input) (a : List Byte) (i' : Input) (hi : Suited w i) (h : Ideal.take n i = .ok (a, i')) : Suited w i' := by
  unfold Ideal.take at h
  split at h
  · cases h; exact hi.adv n
  · cases h

theorem Suited.rest (i : Input) (a : List Byte) (i' : Input) (hi : Suited w i) (h : Ideal.rest i = .ok (a, i')) : Suited w i' := by
  unfold Ideal.rest at h
  split at h
  · cases h; exact hi.adv _
  · cases h

theorem Suits.array (n : Nat) : Suits Eq (ParserM.array n : MendOn w β (List Byte)) (ParserM.array n : Ideal (List Byte)) :=
  Suits.of_mends (Mends.array n) Suited.take

theorem Suits.bytesLen (n : Nat) :
    Suits (HasLen n) (ParserM.bytes n : MendOn w β (Cow Byte)) (ParserM.bytes n : Ideal (List Byte)) := by
  intro p i al hp hi
  show SuitsOut w (HasLen n) (MendOn.bytes w n p) (Ideal.take n i)
  unfold MendOn.bytes
  by_cases hn : n ≥ w.limit
  · rw [P.ite_pos hn, Ideal.take_short (by have := hi.1; omega)]
    exact ⟨_, rfl, .inr ⟨hi.2.1, rfl⟩⟩
  · rw [P.ite_neg hn]
    exact Suits.of_mends (w := w) (m := Mend.bytes n) (Mends.bytesLen n) Suited.take p i al hp hi

theorem Suits.bytes (n : Nat) : Suits HasData (ParserM.bytes n : MendOn w β (Cow Byte)) (ParserM.bytes n : Ideal (List Byte)) :=
  (Suits.bytesLen n).mono fun _ _ h => h.1

theorem Suits.rest {β : Type} [ParseBuf β] [LawfulEof β] :
    Suits HasData (ParserM.rest : MendOn w β (Cow Byte)) (ParserM.rest : Ideal (List Byte)) :=
  Suits.of_mends Mends.rest Suited.rest

theorem Suits.restTrimNul {β : Type} [ParseBuf β] [LawfulEof β] :
    Suits HasData (ParserM.restTrimNul : MendOn w β (Cow Byte)) (ParserM.restTrimNul : Ideal (List Byte)) := by
  refine Suits.of_mends Mends.restTrimNul fun i a i' hi h => ?_
  have h : (Ideal.rest >>= fun bs => Pure.pure (trimNul bs)) i = .ok (a, i') := h
  rcases hr : Ideal.rest i with e | ⟨b, j⟩
  · rw [Ideal.bind_err hr] at h; cases h
  · rw [Ideal.bind_ok hr] at h; cases h; exact Suited.rest i b _ hi hr

theorem Suits.padded {R : α → α' → Prop} {m : MendOn w β α} {s : Ideal α'} {n : Nat} (hn : n ≠ 0) (h : Suits R m s) :
    Suits R (ParserM.padded n m : MendOn w β α) (ParserM.padded n s : Ideal α') := by
  intro p i al hp hi
  show SuitsOut w R (P.padded n m p) (Ideal.padded n s i)
  unfold P.padded Ideal.padded
  rw [P.ite_neg hn, P.bind_nil (P.offset_run p)]
  have h1 := h p i al hp hi
  rcases hs : s i with e | ⟨c, i'⟩
  · rw [hs] at h1
    obtain ⟨e', h1, h2⟩ := h1
    rw [P.bind_err (P.run_eq _ h1)]
    exact ⟨e', rfl, h2⟩
  · rw [hs] at h1
    obtain ⟨a, al', h2, h3, h4, hi'⟩ := h1
    rw [P.bind_ok (P.run_eq _ h2), P.bind_nil (P.offset_run _)]
    have ho : p.data.offset = i.off := hp.off
    have ho' : (m p).st.data.offset = i'.off := h4.off
    simp only [ho, ho']
    by_cases hz : (i'.off - i.off) % n = 0
    · simp only [if_pos hz]
      exact ⟨a, al', rfl, h3, h4, hi'⟩
    · simp only [if_neg hz]
      have h5 := (P.bytesIgnored_takes h4 (n - (i'.off - i.off) % n)).1
      unfold Takes at h5
      have hb : (i'.flat al').s.bytes = i'.bytes := rfl
      rw [hb] at h5
      unfold Ideal.take
      by_cases hle : n - (i'.off - i.off) % n ≤ i'.bytes.length
      · rw [if_pos hle] at h5 ⊢
        rw [P.bind_ok (P.run_eq _ h5.1)]
        exact ⟨a, _, rfl, h3, h5.2.1, hi'.adv _⟩
      · rw [if_neg hle] at h5 ⊢
        rw [P.bind_err (P.run_eq _ h5)]
        exact ⟨_, rfl, .inl rfl⟩

/-! ## Slices -/

theorem Suits.repeatedLoop {item : MendOn w β T} {itemS : Ideal T} (h : Suits Eq item itemS) : ∀ n : Nat,
    Suits (w := w) Eq (P.repeatedLoop item n) (Ideal.repeated itemS n) := by
  intro n
  induction n with
  | zero => exact Suits.pure rfl
  | succ n ih =>
    refine Suits.bind (m := item) h fun x x' hx => Suits.bind (m := P.repeatedLoop item n) ih fun xs xs' hxs => Suits.pure ?_
    rw [hx, hxs]

theorem Suits.repeated {item : MendOn w β T} {itemS : Ideal T} (size : Nat) (h : Suits Eq item itemS) (n : Nat) :
    Suits (w := w) Eq (P.repeated size item n) (Ideal.repeated itemS n) := by
  intro p i al hp hi
  unfold P.repeated
  obtain ⟨b, hb, _⟩ := P.safeCapacityBound_run size p
  rw [P.bind_nil hb, P.bind_ok (P.alloc_run _ p)]
  have h1 := Suits.repeatedLoop h n p i al hp hi
  rcases hs : Ideal.repeated itemS n i with e | ⟨c, f'⟩
  · rw [hs] at h1; exact h1
  · rw [hs] at h1; exact h1

/-- The direct way either leaves the input alone, or takes the elements, or reports its end. -/
theorem MendOn.sliceDirect_cases {p : Parser β} {i : Input} {al : Al} (hp : RepP p (i.flat al)) (e : Elem T) (n : Nat) :
    (i.bytes = [] ∧ ∃ q, (MendOn.sliceDirect w e n : P β (Option (List T))) p = ⟨.error (.err i.fin), q, []⟩) ∨
    (∃ q al', (MendOn.sliceDirect w e n : P β (Option (List T))) p = ⟨.ok none, q, []⟩ ∧ RepP q (i.flat al')) ∨
    (i.cfg.endian.isNative = true ∧ n * e.size ≤ i.bytes.length ∧ ∃ q al', (MendOn.sliceDirect w e n : P β (Option (List T))) p =
      ⟨.ok (some (e.decodeAll (fromOrder i.cfg.host 64) n i.bytes)), q, []⟩ ∧ RepP q ((i.adv (n * e.size)).flat al')) := by
  have hcfg : P.config p = ⟨.ok i.cfg, p, []⟩ := by rw [P.config_run, hp.cfg]; rfl
  unfold MendOn.sliceDirect
  rw [P.bind_nil hcfg]
  by_cases hn : i.cfg.endian.isNative = true
  · rw [P.ite_neg (by simp [hn])]
    by_cases he : i.bytes = []
    · obtain ⟨q, hq⟩ := P.chunk_none hp he
      rw [P.bind_err hq]
      exact .inl ⟨he, q, rfl⟩
    · obtain ⟨c, q, hq, hcne, hpre, hal, hrep, hst, hm, hadv⟩ := P.chunk_some hp he
      rw [P.bind_nil hq]
      refine .inr ?_
      cases hloc : c.loc with
      | temporary => exact .inl ⟨q, al, rfl, hrep⟩
      | external addr =>
        by_cases hc : c.data.length < n * e.size ∨ addr % w.align ≠ 0
        · simp only [if_pos hc]
          exact .inl ⟨q, al, rfl, hrep⟩
        · simp only [if_neg hc]
          have hle : n * e.size ≤ c.data.length := by omega
          obtain ⟨q', hq', hrep', _⟩ := hadv (n * e.size) hle
          refine .inr ⟨hn, Nat.le_trans hle hpre.length_le, q', _, ?_, hrep'⟩
          rw [P.bind_nil hq', P.pure_run, List.take_eq_prefix hpre hle, Elem.decodeAll_take _ _ _ _ _ (Nat.le_refl _)]
          rfl
  · rw [P.ite_pos (by simp [hn])]
    exact .inr (.inl ⟨p, al, rfl, hp⟩)

theorem Ideal.repeated_short {e : Elem T} {item : Ideal T} (h : IdealItem e item) : ∀ (n : Nat) (i : Input), i.bytes.length < n * e.size →
    Ideal.repeated item n i = .error i.fin := by
  intro n
  induction n with
  | zero => intro i hi; omega
  | succ n ih =>
    intro i hi
    have hs : (n + 1) * e.size = e.size + n * e.size := by rw [Nat.add_mul]; omega
    unfold Ideal.repeated
    by_cases he : e.size ≤ i.bytes.length
    · rw [Ideal.bind_ok (h.item i he), Ideal.bind_err (ih (i.adv e.size) (by simp [Input.adv]; omega))]
      rfl
    · rw [Ideal.bind_err (h.short i (by omega))]

theorem Suits.slice {e : Elem T} {item : MendOn w β T} {itemS : Ideal T} (h : Suits Eq item itemS) (hi : IdealItem e itemS)
    (n : Nat) : Suits HasData (ParserM.slice e item n : MendOn w β (Cow T)) (ParserM.slice e itemS n : Ideal (List T)) := by
  intro p i al hp hs
  show SuitsOut w HasData (MendOn.slice w e item n p) (Ideal.slice e itemS n i)
  unfold MendOn.slice Ideal.slice
  by_cases hb : n * e.size ≥ w.limit
  · rw [P.ite_pos hb]
    by_cases hb' : n * e.size ≥ usizeLimit
    · rw [if_pos hb']
      exact ⟨_, rfl, .inl rfl⟩
    · rw [if_neg hb', Ideal.repeated_short hi n i (by have := hs.1; omega)]
      exact ⟨_, rfl, .inr ⟨hs.2.1, rfl⟩⟩
  rw [P.ite_neg hb]
  by_cases hn : n = 0
  · rw [P.ite_pos hn]
    subst hn
    rw [if_neg (by unfold usizeLimit; omega)]
    exact ⟨.borrowed [], al, rfl, rfl, hp, hs⟩
  rw [P.ite_neg hn]
  by_cases hb' : n * e.size ≥ usizeLimit
  · have := hs.limit; omega
  rw [if_neg hb']
  rcases MendOn.sliceDirect_cases (w := w) hp e n with ⟨he, q, hq⟩ | ⟨q, al', hq, hrq⟩ | ⟨hnat, hle, q, al', hq, hrq⟩
  · rw [P.bind_err hq, Ideal.repeated_empty hi hn i he]
    exact ⟨_, rfl, .inl rfl⟩
  · rw [P.bind_nil hq]
    have h1 := Suits.repeated e.size h n q i al' hrq hs
    rcases hr : Ideal.repeated itemS n i with er | ⟨c, f'⟩
    · rw [hr] at h1
      obtain ⟨e', h1, h2⟩ := h1
      simp only
      rw [P.bind_err (P.run_eq _ h1)]
      exact ⟨e', rfl, h2⟩
    · rw [hr] at h1
      obtain ⟨a, al'', h2, h3, h4⟩ := h1
      simp only
      rw [P.bind_ok (P.run_eq _ h2)]
      exact ⟨.owned a, al'', rfl, h3, h4⟩
  · rw [P.bind_nil hq, Ideal.repeated_ok hi n i hle]
    refine ⟨_, al', rfl, ?_, hrq, hs.adv _⟩
    exact (hi.decodeAll_congr (hp.wf hnat) n _ hle).symm

theorem Suits.splitAt {c : Cow T} {l : List T} {n k : Nat} (h : HasLen k c l) (hle : n ≤ k) :
    Suits (fun a b => HasData a.1 b.1 ∧ HasData a.2 b.2)
      (ParserM.cowSplitAt c n : MendOn w β (Cow T × Cow T)) (ParserM.cowSplitAt l n : Ideal (List T × List T)) :=
  Suits.of_mends (Mends.splitAt h hle) fun _ _ _ hi h => by cases h; exact hi

end Perf
