import Verif.Proof.Prim2
/-!
# Two program logics for parsers over lawful buffers

`Refines R m s`: the code `m` does what the flat parser `s` says. `Safe B Q m`: whatever the input, `m` does not panic
or run forever, asks for bounded memory, fails only with the expected errors, and on success satisfies `Q` and has
consumed a prefix of the stream.
-/
namespace Perf
variable {β : Type} [ParseBuf β] [Lawful β] {α α' γ γ' T : Type}

/-! ## Refinement -/

/-- The result `o` of the code is what the flat outcome `r` says, up to `R` on values. -/
def Matches (R : α → α' → Prop) (o : Out β α) : Except SFault (α' × Flat) → Prop
  | .error .stuck => True
  | .error (.err e) => o.res = .error (.err e)
  | .ok (c, f') => ∃ a, o.res = .ok a ∧ R a c ∧ RepP o.st f'

/-- The code `m` does what the flat parser `s` says. -/
def Refines (R : α → α' → Prop) (m : P β α) (s : Spec α') : Prop :=
  ∀ p f, RepP p f → Matches R (m p) (s f)

theorem Refines.pure {R : α → α' → Prop} {a : α} {c : α'} (h : R a c) :
    Refines R (Pure.pure a : P β α) (Pure.pure c : Spec α') :=
  fun _ _ hp => ⟨a, rfl, h, hp⟩

theorem Refines.bind {R : α → α' → Prop} {R' : γ → γ' → Prop} {m : P β α} {s : Spec α'} {k : α → P β γ}
    {k' : α' → Spec γ'} (h : Refines R m s) (hk : ∀ a c, R a c → Refines R' (k a) (k' c)) :
    Refines R' (m >>= k) (s >>= k') := by
  intro p f hp
  have h1 := h p f hp
  have hb : (s >>= k') f = match s f with
    | .error e => .error e
    | .ok (a, f') => k' a f' := rfl
  rw [hb]
  rcases hs : s f with e | ⟨c, f'⟩
  · rw [hs] at h1
    cases e with
    | stuck => trivial
    | err e =>
      simp only [Matches] at h1 ⊢
      rw [P.bind_err (P.run_eq _ h1)]
  · rw [hs] at h1
    obtain ⟨a, h2, h3, h4⟩ := h1
    rw [P.bind_ok (P.run_eq _ h2)]
    have h5 := hk a c h3 _ _ h4
    simp only
    rcases hs' : k' c f' with e | ⟨c', f''⟩
    · rw [hs'] at h5; cases e <;> exact h5
    · rw [hs'] at h5; exact h5

theorem Refines.mono {R R' : α → α' → Prop} {m : P β α} {s : Spec α'} (h : Refines R m s)
    (hR : ∀ a c, R a c → R' a c) : Refines R' m s := by
  intro p f hp
  have h1 := h p f hp
  rcases hs : s f with e | ⟨c, f'⟩
  · rw [hs] at h1; cases e <;> exact h1
  · rw [hs] at h1
    obtain ⟨a, h2, h3, h4⟩ := h1
    exact ⟨a, h2, hR _ _ h3, h4⟩

theorem Refines.fail {R : α → α' → Prop} (e : ParseError) : Refines R (P.fail e : P β α) (Spec.fail e) :=
  fun _ _ _ => rfl

theorem Refines.config : Refines Eq (P.config : P β ParseConfig) Spec.config :=
  fun p _ hp => ⟨p.config, rfl, hp.cfg, hp⟩

theorem Refines.ite {R : α → α' → Prop} {c : Prop} [Decidable c] {m m' : P β α} {s s' : Spec α'}
    (h : c → Refines R m s) (h' : ¬ c → Refines R m' s') :
    Refines R (if c then m else m') (if c then s else s') := by
  by_cases hc : c
  · rw [if_pos hc, if_pos hc]; exact h hc
  · rw [if_neg hc, if_neg hc]; exact h' hc

theorem Refines.stuck {R : α → α' → Prop} {m : P β α} : Refines R m (Spec.stuck : Spec α') :=
  fun _ _ _ => trivial

theorem Refines.array (n : Nat) : Refines Eq (P.array n : P β (List Byte)) (Spec.bytes n) := by
  intro p f hp
  have h := (P.array_takes hp n).1
  unfold TakesNe at h
  unfold Spec.bytes Spec.take
  by_cases he : f.s.bytes = []
  · rw [if_pos he] at h; simp only [if_pos he]; exact h
  · rw [if_neg he] at h
    simp only [if_neg he]
    obtain ⟨a, h1, h2⟩ := h
    unfold Takes at h2
    by_cases hle : n ≤ f.s.bytes.length
    · rw [if_pos hle] at h2 ⊢; exact ⟨a, h2.1, h1, h2.2.1⟩
    · rw [if_neg hle] at h2 ⊢; exact h2

/-- A container holds these elements. -/
def HasData (c : Cow T) (l : List T) : Prop := c.data = l

theorem Refines.bytes (n : Nat) : Refines HasData (P.bytes n : P β (Cow Byte)) (Spec.bytes n) := by
  intro p f hp
  have h := (P.bytes_takes hp n).1
  unfold TakesNe at h
  unfold Spec.bytes Spec.take
  by_cases he : f.s.bytes = []
  · rw [if_pos he] at h; simp only [if_pos he]; exact h
  · rw [if_neg he] at h
    simp only [if_neg he]
    obtain ⟨a, h1, h2⟩ := h
    unfold Takes at h2
    by_cases hle : n ≤ f.s.bytes.length
    · rw [if_pos hle] at h2 ⊢; exact ⟨a, h2.1, h1, h2.2.1⟩
    · rw [if_neg hle] at h2 ⊢; exact h2

theorem Refines.rest {β : Type} [ParseBuf β] [LawfulEof β] : Refines HasData (P.rest : P β (Cow Byte)) Spec.rest := by
  intro p f hp
  have h := (P.rest_takes hp).1
  unfold Spec.rest
  by_cases he : f.s.bytes = []
  · rw [if_pos he] at h; simp only [if_pos he]; exact h
  · rw [if_neg he] at h
    simp only [if_neg he]
    unfold TakesRest at h
    by_cases hk : f.s.fin.kind = .eof
    · rw [if_pos hk] at h ⊢
      obtain ⟨c, h1, h2, h3⟩ := h
      exact ⟨c, h1, h2, (h3 LawfulEof.eof_law).1⟩
    · rw [if_neg hk] at h ⊢
      exact h

theorem Cow.truncate_data (c : Cow T) (n : Nat) : (c.truncate n).data = c.data.take n := by
  cases c with
  | owned d => rfl
  | borrowed d =>
    simp only [Cow.truncate]
    split
    · rename_i h; simp only [Cow.data]; rw [List.take_of_length_le (by omega)]
    · rfl

theorem trimNul_prefix (bs : List Byte) : trimNul bs <+: bs := by
  unfold trimNul
  rw [← List.reverse_suffix, List.reverse_reverse]
  exact List.dropWhile_suffix _

theorem Refines.restTrimNul {β : Type} [ParseBuf β] [LawfulEof β] :
    Refines HasData (P.restTrimNul : P β (Cow Byte)) Spec.restTrimNul := by
  refine Refines.bind Refines.rest fun c l h => Refines.pure ?_
  unfold HasData at *
  rw [Cow.truncate_data, h]
  obtain ⟨t, ht⟩ := trimNul_prefix l
  conv => lhs; arg 2; rw [← ht]
  rw [List.take_left']; rfl

theorem Refines.padded {R : α → α' → Prop} {m : P β α} {s : Spec α'} (n : Nat) (h : Refines R m s) :
    Refines R (P.padded n m) (Spec.padded n s) := by
  intro p f hp
  unfold P.padded Spec.padded
  by_cases hn : n = 0
  · simp only [if_pos hn]; trivial
  · simp only [if_neg hn]
    rw [P.bind_nil (P.offset_run p)]
    have h1 := h p f hp
    rcases hs : s f with e | ⟨c, f'⟩
    · rw [hs] at h1
      cases e with
      | stuck => trivial
      | err e =>
        simp only [Matches] at h1 ⊢
        rw [P.bind_err (P.run_eq _ h1)]
    · rw [hs] at h1
      obtain ⟨a, h2, h3, h4⟩ := h1
      rw [P.bind_ok (P.run_eq _ h2), P.bind_nil (P.offset_run _)]
      simp only [hp.off, h4.off]
      by_cases hz : (f'.off - f.off) % n = 0
      · simp only [if_pos hz]
        exact ⟨a, rfl, h3, h4⟩
      · simp only [if_neg hz]
        have h5 := (P.bytesIgnored_takes h4 (n - (f'.off - f.off) % n)).1
        unfold Takes at h5
        unfold Spec.take
        by_cases hle : n - (f'.off - f.off) % n ≤ f'.s.bytes.length
        · rw [if_pos hle] at h5 ⊢
          rw [P.bind_ok (P.run_eq _ h5.1)]
          exact ⟨a, rfl, h3, h5.2.1⟩
        · rw [if_neg hle] at h5 ⊢
          rw [P.bind_err (P.run_eq _ h5)]
          exact rfl

/-! ### Slices -/

/-- `spec` reads one element of the layout `e`. -/
structure ItemOk (e : Elem T) (spec : Spec T) : Prop where
  pos : 0 < e.size
  item : ∀ f : Flat, e.size ≤ f.s.bytes.length →
    spec f = .ok (e.dec f.cfg.endian.conv64 (f.s.bytes.take e.size), f.adv e.size)
  short : ∀ f : Flat, f.s.bytes.length < e.size → spec f = .error (.err f.s.fin)
  congr : ∀ (c c' : List Byte → U64), (∀ bs, bs.length = 8 → c bs = c' bs) → ∀ bs, bs.length = e.size →
    e.dec c bs = e.dec c' bs

theorem Spec.repeated_ok {e : Elem T} {item : Spec T} (h : ItemOk e item) : ∀ (n : Nat) (f : Flat),
    n * e.size ≤ f.s.bytes.length →
    Spec.repeated item n f = .ok (e.decodeAll f.cfg.endian.conv64 n f.s.bytes, f.adv (n * e.size)) := by
  intro n
  induction n with
  | zero => intro f _; simp [Spec.repeated, Elem.decodeAll]; rfl
  | succ n ih =>
    intro f hle
    have hs : (n + 1) * e.size = e.size + n * e.size := by rw [Nat.add_mul]; omega
    have h1 := h.item f (by omega)
    have h2 := ih (f.adv e.size) (by simp; omega)
    show Spec.bind item _ f = _
    simp only [Spec.bind, h1]
    show Spec.bind (Spec.repeated item n) _ _ = _
    simp only [Spec.bind, h2, Flat.adv_adv, hs, Elem.decodeAll]
    rfl

theorem Spec.repeated_short {e : Elem T} {item : Spec T} (h : ItemOk e item) : ∀ (n : Nat) (f : Flat),
    f.s.bytes.length < n * e.size → Spec.repeated item n f = .error (.err f.s.fin) := by
  intro n
  induction n with
  | zero => intro f hlt; omega
  | succ n ih =>
    intro f hlt
    have hs : (n + 1) * e.size = e.size + n * e.size := by rw [Nat.add_mul]; omega
    show Spec.bind item _ f = _
    by_cases hle : e.size ≤ f.s.bytes.length
    · simp only [Spec.bind, h.item f hle]
      show Spec.bind (Spec.repeated item n) _ _ = _
      have h2 := ih (f.adv e.size) (by simp; omega)
      simp only [Spec.bind, h2, Flat.adv_fin]
    · simp only [Spec.bind, h.short f (by omega)]

theorem Elem.decodeAll_take (e : Elem T) (c : List Byte → U64) : ∀ (n : Nat) (bs : List Byte) (k : Nat), n * e.size ≤ k →
    e.decodeAll c n (bs.take k) = e.decodeAll c n bs := by
  intro n
  induction n with
  | zero => intros; rfl
  | succ n ih =>
    intro bs k hk
    have hs : (n + 1) * e.size = e.size + n * e.size := by rw [Nat.add_mul]; omega
    simp only [Elem.decodeAll]
    rw [List.take_take, Nat.min_eq_left (by omega), List.drop_take, ih _ _ (by omega)]

theorem Elem.decodeAll_congr {e : Elem T} {item : Spec T} (h : ItemOk e item) {c c' : List Byte → U64}
    (hc : ∀ bs, bs.length = 8 → c bs = c' bs) : ∀ (n : Nat) (bs : List Byte), n * e.size ≤ bs.length →
    e.decodeAll c n bs = e.decodeAll c' n bs := by
  intro n
  induction n with
  | zero => intros; rfl
  | succ n ih =>
    intro bs hl
    have hs : (n + 1) * e.size = e.size + n * e.size := by rw [Nat.add_mul]; omega
    simp only [Elem.decodeAll]
    rw [h.congr c c' hc _ (by rw [List.length_take]; omega), ih _ (by rw [List.length_drop]; omega)]

theorem Refines.repeatedLoop {item : P β T} {itemS : Spec T} (h : Refines Eq item itemS) : ∀ n : Nat,
    Refines Eq (P.repeatedLoop item n) (Spec.repeated itemS n) := by
  intro n
  induction n with
  | zero => exact Refines.pure rfl
  | succ n ih =>
    refine Refines.bind h fun x x' hx => Refines.bind ih fun xs xs' hxs => Refines.pure ?_
    rw [hx, hxs]

omit [Lawful β] in
theorem P.safeCapacityBound_run (size : Nat) (p : Parser β) : ∃ b, P.safeCapacityBound size p = ⟨.ok b, p, []⟩ ∧
    (0 < size → b = (ParseBuf.hint p.data).getD 16384 / size) := by
  unfold P.safeCapacityBound
  by_cases h : size = 0
  · rw [P.ite_pos h]; exact ⟨_, rfl, by omega⟩
  · rw [P.ite_neg h]; exact ⟨_, rfl, fun _ => rfl⟩

theorem Refines.repeated {item : P β T} {itemS : Spec T} (size : Nat) (h : Refines Eq item itemS) (n : Nat) :
    Refines Eq (P.repeated size item n) (Spec.repeated itemS n) := by
  intro p f hp
  unfold P.repeated
  obtain ⟨b, hb, _⟩ := P.safeCapacityBound_run size p
  rw [P.bind_nil hb, P.bind_ok (P.alloc_run _ p)]
  have h1 := Refines.repeatedLoop h n p f hp
  rcases hs : Spec.repeated itemS n f with e | ⟨c, f'⟩
  · rw [hs] at h1; cases e <;> exact h1
  · rw [hs] at h1; exact h1

theorem Refines.slice {e : Elem T} {item : P β T} {itemS : Spec T} (h : Refines Eq item itemS) (hi : ItemOk e itemS)
    (n : Nat) : Refines HasData (P.slice e item n) (Spec.slice e itemS n) := by
  have hrep : Refines HasData (P.repeated e.size item n >>= fun v => (Pure.pure (Cow.owned v) : P β (Cow T)))
      (Spec.repeated itemS n) := by
    intro p f hp
    have h1 := Refines.repeated e.size h n p f hp
    rcases hs : Spec.repeated itemS n f with er | ⟨c, f'⟩
    · rw [hs] at h1
      cases er with
      | stuck => trivial
      | err er =>
        simp only [Matches] at h1 ⊢
        rw [P.bind_err (P.run_eq _ h1)]
    · rw [hs] at h1
      obtain ⟨a, h2, h3, h4⟩ := h1
      rw [P.bind_ok (P.run_eq _ h2)]
      exact ⟨.owned a, rfl, h3, h4⟩
  intro p f hp
  unfold P.slice Spec.slice
  have hcfg : P.config p = ⟨.ok f.cfg, p, []⟩ := by rw [P.config_run, hp.cfg]
  by_cases hn : f.cfg.endian.isNative = true
  · simp only [if_pos hn]
    by_cases hb : n * e.size ≥ usizeLimit
    · simp only [if_pos hb]
      have : (P.sliceDirect e n : P β (Option (List T))) p = ⟨.error (.err (.custom .invalidRecord
          "array length in bytes larger than usize::MAX")), p, []⟩ := by
        unfold P.sliceDirect
        rw [P.bind_nil hcfg]
        simp only [hn, Bool.not_true]
        rw [P.ite_neg (by simp), P.ite_pos hb]
        rfl
      rw [P.bind_err this]
      rfl
    · simp only [if_neg hb]
      have hd : (P.sliceDirect e n : P β (Option (List T))) p = (P.bytesDirect (n * e.size) >>= fun r =>
          match r with
          | none => (Pure.pure none : P β (Option (List T)))
          | some (addr, bs) =>
            if bs = [] ∨ addr % 8 = 0 then Pure.pure (some (e.decodeAll (fromOrder f.cfg.host 64) n bs))
            else Pure.pure none) p := by
        unfold P.sliceDirect
        rw [P.bind_nil hcfg]
        simp only [hn, Bool.not_true]
        rw [P.ite_neg (by simp), P.ite_neg hb]
        rfl
      by_cases he : f.s.bytes = []
      · simp only [if_pos he]
        rcases P.bytesDirect_cases hp (n * e.size) with ⟨_, q, hq⟩ | ⟨he', _⟩ | ⟨he', _⟩
        · rw [P.bind_err hq] at hd
          rw [P.bind_err hd]
          rfl
        · exact absurd he he'
        · exact absurd he he'
      · simp only [if_neg he]
        by_cases hst : n ≠ 0 ∧ n * e.size ≤ f.s.bytes.length ∧ f.s.al.aligned = false
        · simp only [if_pos hst]; trivial
        · simp only [if_neg hst]
          rcases P.bytesDirect_cases hp (n * e.size) with ⟨he', _⟩ | ⟨_, q, hq, hrq, _⟩ | ⟨_, hle, addr, q, hq, hal, hrq, _⟩
          · exact absurd he' he
          · rw [P.bind_nil hq] at hd
            simp only [P.pure_run] at hd
            rw [P.bind_nil hd]
            exact hrep q f hrq
          · rw [P.bind_nil hq] at hd
            have hok : f.s.bytes.take (n * e.size) = [] ∨ addr % 8 = 0 := by
              by_cases hz : n = 0
              · left; simp [hz]
              · right
                have hal' : f.s.al.aligned = true := by
                  cases hx : f.s.al.aligned with
                  | true => rfl
                  | false => exact absurd ⟨hz, hle, hx⟩ hst
                cases hal2 : f.s.al with
                | unknown => rw [hal2] at hal'; cases hal'
                | temp => rw [hal2] at hal; cases hal
                | «at» k =>
                  rw [hal2] at hal hal'
                  simp only [Al.aligned, beq_iff_eq] at hal'
                  simp only [Al.Allows] at hal
                  omega
            simp only [if_pos hok, P.pure_run] at hd
            rw [P.bind_nil hd, Spec.repeated_ok hi n f hle]
            refine ⟨_, rfl, ?_, hrq⟩
            show e.decodeAll _ n (f.s.bytes.take (n * e.size)) = _
            rw [Elem.decodeAll_take _ _ _ _ _ (Nat.le_refl _)]
            exact (Elem.decodeAll_congr hi (hp.wf hn) n _ hle).symm
  · simp only [if_neg hn]
    have hd : (P.sliceDirect e n : P β (Option (List T))) p = ⟨.ok none, p, []⟩ := by
      unfold P.sliceDirect
      rw [P.bind_nil hcfg]
      rw [P.ite_pos (by simp [hn])]
      rfl
    rw [P.bind_nil hd]
    exact hrep p f hp

/-! ### `Cow` operations -/

theorem Refines.splitAt {c : Cow T} {l : List T} (h : HasData c l) (n : Nat) :
    Refines (fun a b => HasData a.1 b.1 ∧ HasData a.2 b.2)
      (ParserM.cowSplitAt c n : P β (Cow T × Cow T)) (Spec.splitAt l n) := by
  unfold HasData at h
  subst h
  intro p f hp
  unfold Spec.splitAt
  by_cases hs : c.data ≠ [] ∧ (n = 0 ∨ n ≥ c.data.length) ∨ n > c.data.length
  · rw [if_pos hs]; trivial
  · rw [if_neg hs]
    have hle : n ≤ c.data.length := by
      apply Nat.le_of_not_lt; intro h; exact hs (.inr h)
    have : ∃ r, c.splitAt n = some r ∧ r.1.data = c.data.take n ∧ r.2.data = c.data.drop n := by
      cases c with
      | borrowed d =>
        simp only [Cow.data] at hle
        exact ⟨_, by simp only [Cow.splitAt]; rw [if_pos hle], rfl, rfl⟩
      | owned d =>
        simp only [Cow.data] at hs hle ⊢
        by_cases hd : d = []
        · subst hd
          simp only [List.length_nil, Nat.le_zero_eq] at hle
          subst hle
          exact ⟨_, rfl, rfl, rfl⟩
        · have h1 : n ≠ 0 := fun h => hs (.inl ⟨hd, .inl h⟩)
          have h2 : n ≠ d.length := fun h => hs (.inl ⟨hd, .inr (by omega)⟩)
          exact ⟨_, by simp only [Cow.splitAt]; rw [if_neg h1, if_neg h2, if_pos hle], rfl, rfl⟩
    obtain ⟨r, h1, h2, h3⟩ := this
    refine ⟨r, ?_, ⟨h2, h3⟩, ?_⟩
    · simp only [ParserM.cowSplitAt, h1]; rfl
    · simp only [ParserM.cowSplitAt, h1]; exact hp

/-! ## Safety -/

/-- Errors a parser may report on malformed or truncated input. -/
def OkErr (f : Flat) (e : ParseError) : Prop :=
  e = f.s.fin ∨ e.code = .invalidRecord ∨ e.code = .unsupportedConfig

/-- The result `o`, started from `p` in state `f`, is acceptable. -/
def SafeOut (B : Nat) (Q : α → Prop) (f : Flat) (o : Out β α) : Prop :=
  LogLe o.log B ∧
  match o.res with
  | .ok a => Q a ∧ ∃ k, k ≤ f.s.bytes.length ∧ RepP o.st (f.adv k) ∧ HintLe o.st.data B
  | .error (.err e) => OkErr f e
  | .error _ => False

/-- The code `m` is well behaved on every input. -/
def Safe (B : Nat) (Q : α → Prop) (m : P β α) : Prop :=
  ∀ p f, RepP p f → f.s.bytes.length ≤ B → HintLe p.data B → SafeOut B Q f (m p)

theorem Safe.pure {B : Nat} {Q : α → Prop} {a : α} (h : Q a) : Safe B Q (Pure.pure a : P β α) := by
  intro p f hp _ hh
  exact ⟨LogLe.nil B, h, 0, Nat.zero_le _, by rw [Flat.adv_zero]; exact hp, hh⟩

theorem Safe.bind {B : Nat} {Q : α → Prop} {Q' : γ → Prop} {m : P β α} {k : α → P β γ}
    (h : Safe B Q m) (hk : ∀ a, Q a → Safe B Q' (k a)) : Safe B Q' (m >>= k) := by
  intro p f hp hB hh
  obtain ⟨hl, hr⟩ := h p f hp hB hh
  rcases hres : (m p).res with e | a
  · rw [hres] at hr
    rw [P.bind_err (P.run_eq _ hres)]
    refine ⟨hl, ?_⟩
    cases e <;> exact hr
  · rw [hres] at hr
    obtain ⟨hQ, n, hn, hrep, hh'⟩ := hr
    rw [P.bind_ok (P.run_eq _ hres)]
    obtain ⟨hl', hr'⟩ := hk a hQ _ _ hrep (by simp; omega) hh'
    refine ⟨hl.append hl', ?_⟩
    simp only
    split at hr'
    · obtain ⟨hQ', j, hj, hrep', hh''⟩ := hr'
      simp only [Flat.adv_bytes, List.length_drop, Flat.adv_adv] at hj hrep'
      exact ⟨hQ', n + j, by omega, hrep', hh''⟩
    · exact hr'
    · exact hr'

theorem Safe.mono {B : Nat} {Q Q' : α → Prop} {m : P β α} (h : Safe B Q m) (hQ : ∀ a, Q a → Q' a) : Safe B Q' m := by
  intro p f hp hB hh
  obtain ⟨hl, hr⟩ := h p f hp hB hh
  refine ⟨hl, ?_⟩
  split at hr
  · obtain ⟨h1, h2⟩ := hr; exact ⟨hQ _ h1, h2⟩
  · exact hr
  · exact hr

theorem Safe.fail {B : Nat} {Q : α → Prop} {e : ParseError} (h : e.code = .invalidRecord ∨ e.code = .unsupportedConfig) :
    Safe B Q (P.fail e : P β α) := by
  intro p f hp _ _
  refine ⟨LogLe.nil B, ?_⟩
  exact .inr h

theorem Safe.config {B : Nat} : Safe B (fun _ => True) (P.config : P β ParseConfig) := by
  intro p f hp _ hh
  exact ⟨LogLe.nil B, trivial, 0, Nat.zero_le _, by rw [Flat.adv_zero]; exact hp, hh⟩

theorem Safe.ite {B : Nat} {Q : α → Prop} {c : Prop} [Decidable c] {m m' : P β α}
    (h : c → Safe B Q m) (h' : ¬ c → Safe B Q m') : Safe B Q (if c then m else m') := by
  by_cases hc : c
  · rw [if_pos hc]; exact h hc
  · rw [if_neg hc]; exact h' hc

omit [Lawful β] in
theorem HintMono.le {p q : Parser β} {B : Nat} (h : HintMono p q) (h' : HintLe p.data B) : HintLe q.data B := h B h'

theorem Safe.array {B : Nat} (n : Nat) : Safe B (fun l => l.length = n) (P.array n : P β (List Byte)) := by
  intro p f hp _ hh
  obtain ⟨h, hl⟩ := P.array_takes hp n
  refine ⟨by rw [hl]; exact LogLe.nil B, ?_⟩
  unfold TakesNe at h
  by_cases he : f.s.bytes = []
  · rw [if_pos he] at h; rw [h]; exact .inl rfl
  · rw [if_neg he] at h
    obtain ⟨a, h1, h2⟩ := h
    unfold Takes at h2
    by_cases hle : n ≤ f.s.bytes.length
    · rw [if_pos hle] at h2
      rw [h2.1]
      exact ⟨by simp only [h1, List.length_take]; omega, n, hle, h2.2.1, h2.2.2.le hh⟩
    · rw [if_neg hle] at h2; rw [h2]; exact .inl rfl

theorem Safe.bytes {B : Nat} (n : Nat) : Safe B (fun c => c.data.length = n) (P.bytes n : P β (Cow Byte)) := by
  intro p f hp _ hh
  obtain ⟨h, hl⟩ := P.bytes_takes hp n
  refine ⟨hl B hh, ?_⟩
  unfold TakesNe at h
  by_cases he : f.s.bytes = []
  · rw [if_pos he] at h; rw [h]; exact .inl rfl
  · rw [if_neg he] at h
    obtain ⟨a, h1, h2⟩ := h
    unfold Takes at h2
    by_cases hle : n ≤ f.s.bytes.length
    · rw [if_pos hle] at h2
      rw [h2.1]
      exact ⟨by simp only [h1, List.length_take]; omega, n, hle, h2.2.1, h2.2.2.le hh⟩
    · rw [if_neg hle] at h2; rw [h2]; exact .inl rfl

theorem Safe.rest {β : Type} [ParseBuf β] [LawfulEof β] {B : Nat} : Safe B (fun _ => True) (P.rest : P β (Cow Byte)) := by
  intro p f hp hB hh
  obtain ⟨h, hl⟩ := P.rest_takes hp
  refine ⟨hl B hB, ?_⟩
  by_cases he : f.s.bytes = []
  · rw [if_pos he] at h; rw [h]; exact .inl rfl
  · rw [if_neg he] at h
    unfold TakesRest at h
    by_cases hk : f.s.fin.kind = .eof
    · rw [if_pos hk] at h
      obtain ⟨c, h1, h2, h3⟩ := h
      obtain ⟨h3, h4⟩ := h3 LawfulEof.eof_law
      rw [h1]
      exact ⟨trivial, _, Nat.le_refl _, h3, h4.le hh⟩
    · rw [if_neg hk] at h; rw [h]; exact .inl rfl

theorem Safe.restTrimNul {β : Type} [ParseBuf β] [LawfulEof β] {B : Nat} : Safe B (fun _ => True) (P.restTrimNul : P β (Cow Byte)) :=
  Safe.bind Safe.rest fun _ _ => Safe.pure trivial

theorem Safe.bytesIgnored {B : Nat} (n : Nat) : Safe B (fun _ => True) (P.bytesIgnored n : P β Unit) := by
  intro p f hp _ hh
  obtain ⟨h, hl⟩ := P.bytesIgnored_takes hp n
  refine ⟨by rw [hl]; exact LogLe.nil B, ?_⟩
  unfold Takes at h
  by_cases hle : n ≤ f.s.bytes.length
  · rw [if_pos hle] at h
    rw [h.1]
    exact ⟨trivial, n, hle, h.2.1, h.2.2.le hh⟩
  · rw [if_neg hle] at h; rw [h]; exact .inl rfl

theorem Safe.offset {B : Nat} : Safe B (fun _ => True) (P.offset : P β Nat) := by
  intro p f hp _ hh
  exact ⟨LogLe.nil B, trivial, 0, Nat.zero_le _, by rw [Flat.adv_zero]; exact hp, hh⟩

theorem Safe.padded {B : Nat} {Q : α → Prop} {m : P β α} {n : Nat} (hn : n ≠ 0) (h : Safe B Q m) :
    Safe B Q (P.padded n m) := by
  unfold P.padded
  refine Safe.ite (fun h => absurd h hn) fun _ => ?_
  refine Safe.bind Safe.offset fun a _ => Safe.bind h fun v hv => Safe.bind Safe.offset fun b _ => ?_
  exact Safe.ite (fun _ => Safe.pure hv) fun _ => Safe.bind (Safe.bytesIgnored _) fun _ _ => Safe.pure hv

theorem Safe.repeatedLoop {B : Nat} {Q : T → Prop} {item : P β T} (h : Safe B Q item) : ∀ n : Nat,
    Safe B (fun l => l.length = n) (P.repeatedLoop item n) := by
  intro n
  induction n with
  | zero => exact Safe.pure rfl
  | succ n ih => exact Safe.bind h fun x _ => Safe.bind ih fun xs hxs => Safe.pure (by simp [hxs])

theorem Safe.repeated {B size : Nat} (hs : 0 < size) {Q : T → Prop} {item : P β T} (h : Safe B Q item) (n : Nat) :
    Safe B (fun l => l.length = n) (P.repeated size item n) := by
  intro p f hp hB hh
  unfold P.repeated
  obtain ⟨b, hb, hb'⟩ := P.safeCapacityBound_run size p
  rw [P.bind_nil hb, P.bind_ok (P.alloc_run _ p)]
  obtain ⟨hl, hr⟩ := Safe.repeatedLoop h n p f hp hB hh
  refine ⟨LogLe.append ?_ hl, hr⟩
  intro x hx
  simp only [List.mem_singleton] at hx
  subst hx
  rw [hb' hs]
  have h1 : min n ((ParseBuf.hint p.data).getD 16384 / size) * size ≤ (ParseBuf.hint p.data).getD 16384 := by
    calc _ ≤ (ParseBuf.hint p.data).getD 16384 / size * size := Nat.mul_le_mul_right _ (Nat.min_le_right _ _)
      _ ≤ _ := Nat.div_mul_le_self _ _
  cases hhint : ParseBuf.hint p.data with
  | none => rw [hhint] at h1; simp only [Option.getD_none] at h1 ⊢; omega
  | some y =>
    have := hh y hhint
    rw [hhint] at h1
    simp only [Option.getD_some] at h1 ⊢
    omega

theorem Elem.decodeAll_length (e : Elem T) (c : List Byte → U64) : ∀ (n : Nat) (bs : List Byte),
    (e.decodeAll c n bs).length = n := by
  intro n
  induction n with
  | zero => intros; rfl
  | succ n ih => intro bs; simp [Elem.decodeAll, ih]

theorem Safe.bytesDirect {B : Nat} (n : Nat) :
    Safe B (fun _ => True) (P.bytesDirect n : P β (Option (Nat × List Byte))) := by
  intro p f hp _ hh
  rcases P.bytesDirect_cases hp n with ⟨_, q, hq⟩ | ⟨_, q, hq, hrq, hm⟩ | ⟨_, hle, addr, q, hq, hal, hrq, hm⟩
  · rw [hq]; exact ⟨LogLe.nil B, .inl rfl⟩
  · rw [hq]; exact ⟨LogLe.nil B, trivial, 0, Nat.zero_le _, by rw [Flat.adv_zero]; exact hrq, hm.le hh⟩
  · rw [hq]; exact ⟨LogLe.nil B, trivial, n, hle, hrq, hm.le hh⟩

theorem Safe.slice {B : Nat} {e : Elem T} (hs : 0 < e.size) {Q : T → Prop} {item : P β T} (h : Safe B Q item)
    (n : Nat) : Safe B (fun c => c.data.length = n) (P.slice e item n) := by
  unfold P.slice
  refine Safe.bind (Q := fun r => ∀ l, r = some l → l.length = n) ?_ fun r hr => ?_
  · unfold P.sliceDirect
    refine Safe.bind Safe.config fun cfg _ => ?_
    refine Safe.ite (fun _ => Safe.pure (by simp)) fun _ => ?_
    refine Safe.ite (fun _ => Safe.fail (by simp [ParseError.custom, ParseError.withKind, ParseError.new])) fun _ => ?_
    refine Safe.bind (Safe.bytesDirect _) fun r _ => ?_
    match r with
    | none => exact Safe.pure (by simp)
    | some (addr, bs) =>
      refine Safe.ite (fun _ => Safe.pure ?_) fun _ => Safe.pure (by simp)
      intro l hl
      simp only [Option.some.injEq] at hl
      rw [← hl, Elem.decodeAll_length]
  · match r with
    | some l => exact Safe.pure (hr l rfl)
    | none => exact Safe.bind (Safe.repeated hs h n) fun v hv => Safe.pure hv

theorem Safe.splitAt {B : Nat} {c : Cow T} {n : Nat} (h : n ≤ c.data.length) :
    Safe B (fun _ => True) (ParserM.cowSplitAt c n : P β (Cow T × Cow T)) := by
  have : ∃ r, c.splitAt n = some r := by
    cases c with
    | borrowed d => simp only [Cow.data] at h; exact ⟨_, by simp only [Cow.splitAt]; rw [if_pos h]⟩
    | owned d =>
      simp only [Cow.data] at h
      simp only [Cow.splitAt, if_pos h]
      split
      · exact ⟨_, rfl⟩
      · split
        · exact ⟨_, rfl⟩
        · exact ⟨_, rfl⟩
  obtain ⟨r, hr⟩ := this
  have : (ParserM.cowSplitAt c n : P β (Cow T × Cow T)) = Pure.pure r := by
    simp only [ParserM.cowSplitAt, hr]
  rw [this]
  exact Safe.pure trivial

end Perf
