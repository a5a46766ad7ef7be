import Verif.Proof.User
/-!
# Programs that go on after an error

Over a buffer that keeps reporting its end, where the parser stands after an error is a function of the bytes too: an
error at the end of the input leaves nothing behind.
-/
namespace Perf
variable {β : Type} [ParseBuf β] [Lawful β] {α γ T : Type}

/-! ## Errors at the end consume everything -/

/-- Where `o` left the parser. -/
def Exhausted (f : Flat) (o : Out β α) : Prop :=
  match o.res with
  | .ok _ => ∃ k, k ≤ f.s.bytes.length ∧ RepP o.st (f.adv k)
  | .error (.err _) => RepP o.st (f.adv f.s.bytes.length)
  | .error _ => True

/-- `m` fails only after consuming everything. -/
def Exhausts (m : P β α) : Prop := ∀ p f, RepP p f → f.s.fin.kind = .eof → Exhausted f (m p)

theorem Exhausted.step {f : Flat} {o : Out β α} {k : Nat} (hk : k ≤ f.s.bytes.length) (h : Exhausted (f.adv k) o) : Exhausted f o := by
  unfold Exhausted at *
  split
  · rename_i a ha
    simp only [ha] at h
    obtain ⟨j, hj, h⟩ := h
    rw [Flat.adv_adv] at h
    simp only [Flat.adv_bytes, List.length_drop] at hj
    exact ⟨k + j, by omega, h⟩
  · rename_i e he
    simp only [he] at h
    rw [Flat.adv_adv] at h
    simp only [Flat.adv_bytes, List.length_drop] at h
    rw [show k + (f.s.bytes.length - k) = f.s.bytes.length by omega] at h
    exact h
  · trivial

theorem Exhausted.ok {f : Flat} {q : Parser β} {l : List Nat} (a : α) {k : Nat} (hk : k ≤ f.s.bytes.length) (h : RepP q (f.adv k)) :
    Exhausted f (⟨.ok a, q, l⟩ : Out β α) := ⟨k, hk, h⟩

theorem Exhausted.here {f : Flat} {q : Parser β} {l : List Nat} (a : α) (h : RepP q f) : Exhausted f (⟨.ok a, q, l⟩ : Out β α) :=
  ⟨0, Nat.zero_le _, by rw [Flat.adv_zero]; exact h⟩

theorem Exhausted.eof {f : Flat} {q : Parser β} {l : List Nat} {e : ParseError} (he : f.s.bytes = []) (h : RepP q f) :
    Exhausted f (⟨.error (.err e), q, l⟩ : Out β α) := by
  show RepP q (f.adv f.s.bytes.length)
  rw [he, List.length_nil, Flat.adv_zero]; exact h

theorem Exhausted.bind {m : P β α} {k : α → P β γ} {p : Parser β} {f : Flat} (h1 : Exhausted f (m p)) (he : f.s.fin.kind = .eof)
    (hk : ∀ a, Exhausts (k a)) : Exhausted f ((m >>= k) p) := by
  unfold Exhausted at h1
  split at h1
  · rename_i a ha
    obtain ⟨j, hj, h1⟩ := h1
    rw [P.bind_ok (P.run_eq _ ha)]
    exact Exhausted.step hj (hk a _ _ h1 he)
  · rename_i e ha
    rw [P.bind_err (P.run_eq _ ha)]
    exact h1
  · rename_i e hne ha
    rw [P.bind_err (P.run_eq _ ha)]
    unfold Exhausted
    cases e with
    | err e => exact absurd rfl (hne e)
    | _ => trivial

theorem Exhausts.bind {m : P β α} {k : α → P β γ} (h : Exhausts m) (hk : ∀ a, Exhausts (k a)) : Exhausts (m >>= k) :=
  fun p f hp he => Exhausted.bind (h p f hp he) he hk

theorem Exhausts.pure (a : α) : Exhausts (Pure.pure a : P β α) := fun _ _ hp _ => Exhausted.here a hp
theorem Exhausts.config : Exhausts (P.config : P β ParseConfig) := fun p _ hp _ => Exhausted.here p.config hp
theorem Exhausts.hint : Exhausts (P.hint : P β (Option Nat)) := fun p _ hp _ => Exhausted.here (ParseBuf.hint p.data) hp
theorem Exhausts.alloc (n : Nat) : Exhausts (P.alloc n : P β Unit) := fun _ _ hp _ => Exhausted.here () hp

theorem P.toSliceLoop_drained (hlaw : EofLaw β) : ∀ (fuel len : Nat) (w : List Byte) (p : Parser β) (f : Flat), RepP p f →
    f.s.fin.kind = .eof → Exhausted f (P.toSliceLoop fuel len w p) := by
  intro fuel
  induction fuel with
  | zero => intro len w p f _ _; exact trivial
  | succ fuel ih =>
    intro len w p f h hk
    unfold P.toSliceLoop
    by_cases hl : len = 0
    · rw [P.ite_pos hl]; exact Exhausted.here _ h
    · rw [P.ite_neg hl]
      by_cases he : f.s.bytes = []
      · obtain ⟨q, hq, hr, _⟩ := P.chunk_eof hlaw h he hk
        rw [P.bind_err hq]; exact Exhausted.eof he hr
      · obtain ⟨c, q, hq, hcne, hpre, _, hrep, hst, hm, hadv⟩ := P.chunk_some h he
        rw [P.bind_nil hq]
        obtain ⟨q', hq', hrep', hst', hm'⟩ := hadv (min c.data.length len) (Nat.min_le_left _ _)
        rw [P.bind_nil hq']
        exact Exhausted.step (Nat.le_trans (Nat.min_le_left _ _) hpre.length_le) (ih _ _ _ _ hrep' hk)

theorem P.bytesSlowLoop_drained (hlaw : EofLaw β) : ∀ (fuel len : Nat) (w : List Byte) (p : Parser β) (f : Flat), RepP p f →
    f.s.fin.kind = .eof → Exhausted f (P.bytesSlowLoop fuel len w p) := by
  intro fuel
  induction fuel with
  | zero => intro len w p f _ _; exact trivial
  | succ fuel ih =>
    intro len w p f h hk
    unfold P.bytesSlowLoop
    by_cases hl : len = 0
    · rw [P.ite_pos hl]; exact Exhausted.here _ h
    · rw [P.ite_neg hl]
      by_cases he : f.s.bytes = []
      · obtain ⟨q, hq, hr, _⟩ := P.chunk_eof hlaw h he hk
        rw [P.bind_err hq]; exact Exhausted.eof he hr
      · obtain ⟨c, q, hq, hcne, hpre, _, hrep, hst, hm, hadv⟩ := P.chunk_some h he
        rw [P.bind_nil hq]
        have htl : (c.truncate len).data.length ≤ c.data.length := by
          rw [Chunk.truncate_data, List.length_take]; omega
        obtain ⟨q', hq', hrep', hst', hm'⟩ := hadv _ htl
        rw [P.bind_nil hq']
        exact Exhausted.step (Nat.le_trans htl hpre.length_le) (ih _ _ _ _ hrep' hk)

theorem P.cursorLoop_drained (hlaw : EofLaw β) : ∀ (fuel len : Nat) (acc : List Chunk) (p : Parser β) (f : Flat), RepP p f →
    f.s.fin.kind = .eof → Exhausted f (P.cursorLoop fuel len acc p) := by
  intro fuel
  induction fuel with
  | zero => intro len acc p f _ _; exact trivial
  | succ fuel ih =>
    intro len acc p f h hk
    unfold P.cursorLoop
    by_cases hl : len = 0
    · rw [P.ite_pos hl]; exact Exhausted.here _ h
    · rw [P.ite_neg hl]
      by_cases he : f.s.bytes = []
      · obtain ⟨q, hq, hr, _⟩ := P.chunk_eof hlaw h he hk
        rw [P.bind_err hq]; exact Exhausted.eof he hr
      · obtain ⟨c, q, hq, hcne, hpre, _, hrep, hst, hm, hadv⟩ := P.chunk_some h he
        rw [P.bind_nil hq]
        have htl : (c.truncate len).data.length ≤ c.data.length := by
          rw [Chunk.truncate_data, List.length_take]; omega
        obtain ⟨q', hq', hrep', hst', hm'⟩ := hadv _ htl
        have ha : ∃ out l, P.pushChunk (c.truncate len) acc q = ⟨.ok out, q, l⟩ := by
          obtain ⟨l, _, hr⟩ := P.toCow_run (c.truncate len) q
          unfold P.pushChunk
          by_cases hz : (c.truncate len).data.length > 0
          · rw [P.ite_pos hz, P.bind_ok hr]; exact ⟨_, _, rfl⟩
          · rw [P.ite_neg hz]; exact ⟨_, _, rfl⟩
        obtain ⟨out, l, ha⟩ := ha
        rw [P.bind_ok ha, P.bind_nil hq']
        have h3 := Exhausted.step (Nat.le_trans htl hpre.length_le) (ih (len - (c.truncate len).data.length) out q' _ hrep' hk)
        exact h3

theorem P.ignoredLoop_drained (hlaw : EofLaw β) : ∀ (fuel len : Nat) (p : Parser β) (f : Flat), RepP p f →
    f.s.fin.kind = .eof → Exhausted f (P.ignoredLoop fuel len p) := by
  intro fuel
  induction fuel with
  | zero => intro len p f _ _; exact trivial
  | succ fuel ih =>
    intro len p f h hk
    unfold P.ignoredLoop
    by_cases hl : len = 0
    · rw [P.ite_pos hl]; exact Exhausted.here _ h
    · rw [P.ite_neg hl]
      by_cases he : f.s.bytes = []
      · obtain ⟨q, hq, hr, _⟩ := P.chunk_eof hlaw h he hk
        rw [P.bind_err hq]; exact Exhausted.eof he hr
      · obtain ⟨c, q, hq, hcne, hpre, _, hrep, hst, hm, hadv⟩ := P.chunk_some h he
        rw [P.bind_nil hq]
        obtain ⟨q', hq', hrep', hst', hm'⟩ := hadv (min c.data.length len) (Nat.min_le_left _ _)
        rw [P.bind_nil hq']
        exact Exhausted.step (Nat.le_trans (Nat.min_le_left _ _) hpre.length_le) (ih _ _ _ hrep' hk)

theorem Exhausts.bytesIgnored (hlaw : EofLaw β) (n : Nat) : Exhausts (P.bytesIgnored n : P β Unit) := by
  intro p f hp hk
  unfold P.bytesIgnored
  rw [P.bind_nil (P.fuel_run p)]
  exact P.ignoredLoop_drained hlaw _ _ _ _ hp hk

theorem Exhausts.toSlice (hlaw : EofLaw β) (n : Nat) : Exhausts (P.toSlice n : P β (List Byte)) := by
  intro p f hp hk
  unfold P.toSlice
  rw [P.bind_nil (P.fuel_run p)]
  exact P.toSliceLoop_drained hlaw _ _ _ _ _ hp hk

theorem Exhausts.splitAt (hlaw : EofLaw β) (n : Nat) : Exhausts (P.splitAt n : P β (Parser Cursor)) := by
  refine Exhausts.bind (fun p f hp hk => ?_) fun _ => Exhausts.bind Exhausts.config fun _ => Exhausts.pure _
  unfold P.newCursor
  rw [P.bind_nil (P.fuel_run p)]
  exact Exhausts.bind (fun q g hq hk => P.cursorLoop_drained hlaw _ _ _ _ _ hq hk) (fun _ => Exhausts.pure _) p f hp hk

theorem Exhausts.array (hlaw : EofLaw β) (n : Nat) : Exhausts (P.array n : P β (List Byte)) := by
  intro p f h hk
  unfold P.array
  by_cases he : f.s.bytes = []
  · obtain ⟨q, hq, hr, _⟩ := P.chunk_eof hlaw h he hk
    rw [P.bind_err hq]; exact Exhausted.eof he hr
  · obtain ⟨c, q, hq, hcne, hpre, _, hrep, hst, hm, hadv⟩ := P.chunk_some h he
    rw [P.bind_nil hq]
    by_cases hn : c.data.length < n
    · rw [P.ite_pos hn]; exact Exhausts.toSlice hlaw n q f hrep hk
    · rw [P.ite_neg hn]
      obtain ⟨q', hq', hrep', hst', hm'⟩ := hadv n (by omega)
      rw [P.bind_nil hq']
      exact Exhausted.ok _ (Nat.le_trans (by omega) hpre.length_le) hrep'

theorem Exhausts.bytesDirect (hlaw : EofLaw β) (n : Nat) : Exhausts (P.bytesDirect n : P β (Option (Nat × List Byte))) := by
  intro p f h hk
  rcases P.bytesDirect_cases h n with ⟨he, q, hq⟩ | ⟨he, q, hq, hrep, hm⟩ | ⟨he, hle, addr, q, hq, hal, hrep, hm⟩
  · obtain ⟨q', hq', hr, _⟩ := P.chunk_eof hlaw h he hk
    have : (P.bytesDirect n : P β (Option (Nat × List Byte))) p = ⟨.error (.err f.s.fin), q', []⟩ := by
      unfold P.bytesDirect; rw [P.bind_err hq']
    rw [this]; exact Exhausted.eof he hr
  · rw [hq]; exact Exhausted.here _ hrep
  · rw [hq]; exact Exhausted.ok _ hle hrep

theorem Exhausts.bytesSlow (hlaw : EofLaw β) (n : Nat) : Exhausts (P.bytesSlow n : P β (List Byte)) := by
  refine Exhausts.bind (fun p f hp hk => ?_) fun b => Exhausts.bind (Exhausts.alloc _) fun _ p f hp hk => ?_
  · obtain ⟨b, hb, _⟩ := P.safeCapacityBound_run 1 p
    rw [hb]; exact Exhausted.here _ hp
  · rw [P.bind_nil (P.fuel_run p)]
    exact P.bytesSlowLoop_drained hlaw _ _ _ _ _ hp hk

theorem Exhausts.bytes (hlaw : EofLaw β) (n : Nat) : Exhausts (P.bytes n : P β (Cow Byte)) := by
  refine Exhausts.bind (Exhausts.bytesDirect hlaw n) fun x => ?_
  cases x with
  | some x => exact Exhausts.pure _
  | none =>
    refine Exhausts.bind Exhausts.hint fun h => ?_
    by_cases hh : P.hintAtLeast h n = true
    · simp only [if_pos hh]
      exact Exhausts.bind (Exhausts.alloc _) fun _ => Exhausts.bind (Exhausts.toSlice hlaw n) fun _ => Exhausts.pure _
    · simp only [if_neg hh]
      exact Exhausts.bind (Exhausts.bytesSlow hlaw n) fun _ => Exhausts.pure _

theorem Exhausts.rest (hlaw : EofLaw β) : Exhausts (P.rest : P β (Cow Byte)) := by
  intro p f h hk
  by_cases he : f.s.bytes = []
  · obtain ⟨q, hq, hr, _⟩ := P.chunk_eof hlaw h he hk
    unfold P.rest
    rw [P.bind_err hq]; exact Exhausted.eof he hr
  · have h1 := (P.rest_takes h).1
    unfold TakesRest at h1
    rw [if_neg he, if_pos hk] at h1
    obtain ⟨c, h1, _, h2⟩ := h1
    unfold Exhausted
    rw [h1]
    exact ⟨_, Nat.le_refl _, (h2 hlaw).1⟩

theorem Exhausts.u8 (hlaw : EofLaw β) : Exhausts (parseU8 : P β U8) := Exhausts.bind (Exhausts.array hlaw 1) fun _ => Exhausts.pure _
theorem Exhausts.u16 (hlaw : EofLaw β) : Exhausts (parseU16 : P β U16) :=
  Exhausts.bind (Exhausts.array hlaw 2) fun _ => Exhausts.bind Exhausts.config fun _ => Exhausts.pure _
theorem Exhausts.u32 (hlaw : EofLaw β) : Exhausts (parseU32 : P β U32) :=
  Exhausts.bind (Exhausts.array hlaw 4) fun _ => Exhausts.bind Exhausts.config fun _ => Exhausts.pure _
theorem Exhausts.u64 (hlaw : EofLaw β) : Exhausts (parseU64 : P β U64) :=
  Exhausts.bind (Exhausts.array hlaw 8) fun _ => Exhausts.bind Exhausts.config fun _ => Exhausts.pure _
theorem Exhausts.header (hlaw : EofLaw β) : Exhausts (parseHeader : P β Header) :=
  Exhausts.bind (Exhausts.u32 hlaw) fun _ => Exhausts.bind (Exhausts.u16 hlaw) fun _ => Exhausts.bind (Exhausts.u16 hlaw) fun _ => Exhausts.pure _

theorem Exhausts.repeatedLoop {item : P β T} (h : Exhausts item) : ∀ n, Exhausts (P.repeatedLoop item n)
  | 0 => Exhausts.pure _
  | n + 1 => Exhausts.bind h fun _ => Exhausts.bind (Exhausts.repeatedLoop h n) fun _ => Exhausts.pure _

/-! ## Refinement with states after errors -/

/-- `m` does what `s` says and leaves the parser where `s` says. -/
def Flows (R : α → γ → Prop) (m : P β α) (s : Flow γ) : Prop := ∀ p f, RepP p f → f.s.fin.kind = .eof →
  match s f with
  | none => True
  | some (.ok c, f') => (∃ a, (m p).res = .ok a ∧ R a c) ∧ RepP (m p).st f' ∧ f'.s.fin.kind = .eof
  | some (.error e, f') => (m p).res = .error (.err e) ∧ RepP (m p).st f' ∧ f'.s.fin.kind = .eof

theorem Flows.pure {R : α → γ → Prop} {a : α} {c : γ} (h : R a c) : Flows R (Pure.pure a : P β α) (Flow.pure c) :=
  fun _ _ hp hk => ⟨⟨a, rfl, h⟩, hp, hk⟩
theorem Flows.fail {R : α → γ → Prop} (e : ParseError) : Flows R (P.fail e : P β α) (Flow.fail e) := fun _ _ hp hk => ⟨rfl, hp, hk⟩
theorem Flows.config : Flows Eq (P.config : P β ParseConfig) Flow.config := fun p _ hp hk => ⟨⟨p.config, rfl, hp.cfg⟩, hp, hk⟩

theorem Flows.bind {α' γ' : Type} {R : α → γ → Prop} {R' : α' → γ' → Prop} {m : P β α} {s : Flow γ} {k : α → P β α'} {k' : γ → Flow γ'}
    (h : Flows R m s) (hk : ∀ a c, R a c → Flows R' (k a) (k' c)) : Flows R' (m >>= k) (s.bind k') := by
  intro p f hp hf
  have h1 := h p f hp hf
  unfold Flow.bind
  rcases hs : s f with _ | ⟨e | c, f'⟩
  · trivial
  · rw [hs] at h1
    obtain ⟨h2, h3, h4⟩ := h1
    rw [P.bind_err (P.run_eq _ h2)]
    exact ⟨rfl, h3, h4⟩
  · rw [hs] at h1
    obtain ⟨⟨a, h2, h5⟩, h3, h4⟩ := h1
    rw [P.bind_ok (P.run_eq _ h2)]
    exact hk a c h5 _ f' h3 h4

/-- The end of the input stays what it is. -/
def KeepsFin (s : Spec α) : Prop := ∀ f a f', s f = .ok (a, f') → f'.s.fin = f.s.fin

theorem KeepsFin.pure (a : α) : KeepsFin (Pure.pure a : Spec α) := fun _ _ _ h => by cases h; rfl
theorem KeepsFin.config : KeepsFin Spec.config := fun _ _ _ h => by cases h; rfl
theorem KeepsFin.bind {s : Spec α} {k : α → Spec γ} (h : KeepsFin s) (hk : ∀ a, KeepsFin (k a)) : KeepsFin (s >>= k) := by
  intro f a f' hb
  rcases hs : s f with e | ⟨x, g⟩
  · rw [Spec.bind_err hs] at hb; cases hb
  · rw [Spec.bind_ok hs] at hb
    exact (hk x g a f' hb).trans (h f x g hs)
theorem KeepsFin.bytes (n : Nat) : KeepsFin (Spec.bytes n) := by
  intro f a f' h
  unfold Spec.bytes Spec.take at h
  split at h
  · cases h
  · split at h
    · cases h; rfl
    · cases h
theorem KeepsFin.rest : KeepsFin Spec.rest := by
  intro f a f' h
  unfold Spec.rest at h
  split at h
  · cases h
  · split at h
    · cases h; rfl
    · cases h
theorem KeepsFin.u8 : KeepsFin (parseU8 : Spec U8) := KeepsFin.bind (KeepsFin.bytes 1) fun _ => KeepsFin.pure _
theorem KeepsFin.u16 : KeepsFin (parseU16 : Spec U16) :=
  KeepsFin.bind (KeepsFin.bytes 2) fun _ => KeepsFin.bind KeepsFin.config fun _ => KeepsFin.pure _
theorem KeepsFin.u32 : KeepsFin (parseU32 : Spec U32) :=
  KeepsFin.bind (KeepsFin.bytes 4) fun _ => KeepsFin.bind KeepsFin.config fun _ => KeepsFin.pure _
theorem KeepsFin.u64 : KeepsFin (parseU64 : Spec U64) :=
  KeepsFin.bind (KeepsFin.bytes 8) fun _ => KeepsFin.bind KeepsFin.config fun _ => KeepsFin.pure _
theorem KeepsFin.header : KeepsFin (parseHeader : Spec Header) :=
  KeepsFin.bind KeepsFin.u32 fun _ => KeepsFin.bind KeepsFin.u16 fun _ => KeepsFin.bind KeepsFin.u16 fun _ => KeepsFin.pure _
theorem KeepsFin.repeated {item : Spec T} (h : KeepsFin item) : ∀ n, KeepsFin (Spec.repeated item n)
  | 0 => KeepsFin.pure _
  | n + 1 => KeepsFin.bind h fun _ => KeepsFin.bind (KeepsFin.repeated h n) fun _ => KeepsFin.pure _
theorem KeepsFin.slice {e : Elem T} {item : Spec T} (h : KeepsFin item) (n : Nat) : KeepsFin (Spec.slice e item n) := by
  intro f a f' hs
  unfold Spec.slice at hs
  split at hs
  · split at hs
    · cases hs
    · split at hs
      · cases hs
      · split at hs
        · cases hs
        · exact KeepsFin.repeated h n f a f' hs
  · exact KeepsFin.repeated h n f a f' hs

/-- Agreement at one state. -/
def FlowsAt (R : α → γ → Prop) (m : P β α) (s : Flow γ) (p : Parser β) (f : Flat) : Prop :=
  match s f with
  | none => True
  | some (.ok c, f') => (∃ a, (m p).res = .ok a ∧ R a c) ∧ RepP (m p).st f' ∧ f'.s.fin.kind = .eof
  | some (.error e, f') => (m p).res = .error (.err e) ∧ RepP (m p).st f' ∧ f'.s.fin.kind = .eof

theorem FlowsAt.drain {R : α → γ → Prop} {m : P β α} {s : Spec γ} (h : Refines R m s) (hf : KeepsFin s) {p : Parser β} {f : Flat}
    (hp : RepP p f) (hk : f.s.fin.kind = .eof) (h2 : Exhausted f (m p)) : FlowsAt R m (Flow.drain s) p f := by
  have h1 := h p f hp
  unfold FlowsAt
  unfold Flow.drain
  rcases hs : s f with e | ⟨c, f'⟩
  · rw [hs] at h1
    cases e with
    | stuck => trivial
    | err e =>
      have h1 : (m p).res = .error (.err e) := h1
      unfold Exhausted at h2
      rw [h1] at h2
      exact ⟨h1, h2, hk⟩
  · rw [hs] at h1
    obtain ⟨a, h2, h3, h4⟩ := h1
    exact ⟨⟨a, h2, h3⟩, h4, by rw [hf f c f' hs]; exact hk⟩

theorem Flows.drain {R : α → γ → Prop} {m : P β α} {s : Spec γ} (h : Refines R m s) (hd : Exhausts m) (hf : KeepsFin s) :
    Flows R m (Flow.drain s) := fun p f hp hk => FlowsAt.drain h hf hp hk (hd p f hp hk)

theorem Flows.repeatedLoop {item : P β T} {s : Flow T} (h : Flows Eq item s) : ∀ n, Flows Eq (P.repeatedLoop item n) (Flow.repeated s n)
  | 0 => Flows.pure rfl
  | n + 1 => Flows.bind h fun _ _ e => Flows.bind (Flows.repeatedLoop h n) fun _ _ e' => Flows.pure (by rw [e, e'])

theorem Flows.repeated (size : Nat) {item : P β T} {s : Flow T} (h : Flows Eq item s) (n : Nat) :
    Flows Eq (P.repeated size item n) (Flow.repeated s n) := by
  intro p f hp hk
  unfold P.repeated
  obtain ⟨b, hb, _⟩ := P.safeCapacityBound_run size p
  rw [P.bind_nil hb, P.bind_ok (P.alloc_run _ p)]
  have h1 := Flows.repeatedLoop h n p f hp hk
  rcases hs : Flow.repeated s n f with _ | ⟨e | c, f'⟩
  · trivial
  · rw [hs] at h1; exact h1
  · rw [hs] at h1; exact h1

theorem Flows.slice (hlaw : EofLaw β) {e : Elem T} {item : P β T} {s : Spec T} (hr : Refines Eq item s) (hi : ItemOk e s)
    (hx : Exhausts item) (hf : KeepsFin s) (n : Nat) : Flows HasData (P.slice e item n) (Flow.slice e s n) := by
  intro p f hp hk
  unfold Flow.slice
  by_cases hbig : f.cfg.endian.isNative = true ∧ n * e.size ≥ usizeLimit
  · rw [if_pos hbig]
    have hc : p.config = f.cfg := hp.cfg
    unfold P.slice P.sliceDirect
    rw [P.bind_err (P.bind_nil (P.config_run p) |>.trans (by
      rw [hc, P.ite_neg (by simp [hbig.1]), P.ite_pos hbig.2]; rfl))]
    exact ⟨rfl, hp, hk⟩
  · rw [if_neg hbig]
    refine FlowsAt.drain (Refines.slice hr hi n) (KeepsFin.slice hf n) hp hk ?_
    refine Exhausted.bind ?_ hk fun x => ?_
    · have hc : p.config = f.cfg := hp.cfg
      unfold P.sliceDirect
      rw [P.bind_nil (P.config_run p), hc]
      by_cases hn : f.cfg.endian.isNative = true
      · rw [P.ite_neg (by simp [hn]), P.ite_neg fun h => hbig ⟨hn, h⟩]
        refine Exhausts.bind (Exhausts.bytesDirect hlaw _) (fun x => ?_) p f hp hk
        match x with
        | none => exact Exhausts.pure _
        | some (addr, bs) =>
          by_cases ha : bs = [] ∨ addr % 8 = 0
          · simp only [if_pos ha]; exact Exhausts.pure _
          · simp only [if_neg ha]; exact Exhausts.pure _
      · rw [P.ite_pos (by simp [hn])]
        exact Exhausted.here _ hp
    · match x with
      | some s => exact Exhausts.pure _
      | none =>
        refine Exhausts.bind (Exhausts.bind (fun p f hp hk => ?_) fun b => Exhausts.bind (Exhausts.alloc _) fun _ =>
          Exhausts.repeatedLoop hx n) fun _ => Exhausts.pure _
        obtain ⟨b, hb, _⟩ := P.safeCapacityBound_run e.size p
        rw [hb]; exact Exhausted.here _ hp

/-- `parse_metadata_with_header` after an error. -/
theorem P.metadataWithHeader_drained (hlaw : EofLaw β) {p : Parser β} {f : Flat} (hp : RepP p f) (hk : f.s.fin.kind = .eof) (h : Header) :
    RepP (P.metadataWithHeader h p).st (if h.size.toNat < 8 then f else f.adv (min (h.size.toNat - 8) f.s.bytes.length)) := by
  by_cases h8 : h.size.toNat < 8
  · rw [if_pos h8]
    unfold P.metadataWithHeader
    rw [P.ite_pos h8]; exact hp
  · rw [if_neg h8]
    by_cases hle : h.size.toNat - 8 ≤ f.s.bytes.length
    · rw [Nat.min_eq_left hle]
      exact ((P.metadataWithHeader_run hp h).1 (by omega) hle).1
    · rw [Nat.min_eq_right (by omega)]
      have h1 := (P.splitAt_takes hp (len := h.size.toNat - 8) (by have := h.size_lt; unfold usizeLimit; omega)).1
      rw [if_neg hle] at h1
      have h2 := Exhausts.splitAt hlaw (h.size.toNat - 8) p f hp hk
      unfold Exhausted at h2
      rw [h1] at h2
      unfold P.metadataWithHeader
      rw [P.ite_neg h8, P.bind_err (P.run_eq _ h1)]
      exact h2

theorem P.recordWithHeader_drained (hlaw : EofLaw β) {O : Type} (v : Visitor Cow O) {p : Parser β} {f : Flat} (hp : RepP p f) (hk : f.s.fin.kind = .eof) (h : Header) :
    RepP (P.recordWithHeader v h p).st (if h.size.toNat < 8 then f else f.adv (min (h.size.toNat - 8) f.s.bytes.length)) := by
  by_cases h9 : 8 ≤ h.size.toNat ∧ h.size.toNat - 8 ≤ f.s.bytes.length
  · rw [if_neg (by omega), Nat.min_eq_left h9.2]
    exact ((P.recordWithHeader_run hp v h).1 h9.1 h9.2).1
  · have h1 := P.metadataWithHeader_drained hlaw hp hk h
    have h2 : ∃ e, (P.metadataWithHeader h p).res = .error e := by
      have h3 := Refines.metadataWithHeader h p f hp
      rcases hs : Spec.metadataWithHeader h f with e | ⟨⟨r, md⟩, f'⟩
      · rw [hs] at h3
        cases e with
        | stuck => 
          rcases Spec.metadata_cases h f with ⟨_, a⟩ | ⟨_, _, a⟩ | ⟨_, _, _, a⟩ | ⟨_, _, _, _, a⟩ | ⟨_, _, _, _, sid, i, _, a⟩ <;>
            rw [a] at hs <;> cases hs
        | err e => exact ⟨_, h3⟩
      · exact absurd (Spec.metadata_state hs).2 h9
    obtain ⟨e, h2⟩ := h2
    have : (P.recordWithHeader v h p).st = (P.metadataWithHeader h p).st := by
      unfold P.recordWithHeader
      rw [P.bind_err (P.run_eq _ h2)]
    rw [this]; exact h1

theorem Flows.framed {R : α → γ → Prop} {m : P β α} {s : Spec γ} {h : Header} (hr : Refines R m s) (hf : KeepsFin s)
    (hd : ∀ p f, RepP p f → f.s.fin.kind = .eof →
      RepP (m p).st (if h.size.toNat < 8 then f else f.adv (min (h.size.toNat - 8) f.s.bytes.length))) :
    Flows R m (Flow.framed h s) := by
  intro p f hp hk
  have h1 := hr p f hp
  unfold Flow.framed
  rcases hs : s f with e | ⟨c, f'⟩
  · rw [hs] at h1
    cases e with
    | stuck => trivial
    | err e => exact ⟨h1, hd p f hp hk, by split <;> exact hk⟩
  · rw [hs] at h1
    obtain ⟨a, h2, h3, h4⟩ := h1
    exact ⟨⟨a, h2, h3⟩, h4, by rw [hf f c f' hs]; exact hk⟩

theorem Flows.metadataWithHeader (hlaw : EofLaw β) (h : Header) :
    Flows (fun x y => Region y.1 x.1 ∧ x.2 = y.2 ∧ y.1.s.fin = .eof) (P.metadataWithHeader h : P β (Parser Cursor × Metadata))
      (Flow.framed h (Spec.metadataWithHeader h)) := by
  have hfin : ∀ {f r : Flat} {md : Metadata} {f' : Flat}, Spec.metadataWithHeader h f = .ok ((r, md), f') → r.s.fin = .eof := by
    intro f r md f' hm
    rcases Spec.metadata_cases h f with ⟨_, a⟩ | ⟨_, _, a⟩ | ⟨a1, a2, _, a⟩ | ⟨_, _, _, _, a⟩ | ⟨a1, a2, _, _, sid, i, _, a⟩ <;>
      rw [a] at hm <;> cases hm <;> rfl
  refine Flows.framed ?_ (fun f a f' hm => ?_) fun p f hp hk => P.metadataWithHeader_drained hlaw hp hk h
  · intro p f hp
    have h1 := Refines.metadataWithHeader h p f hp
    rcases hs : Spec.metadataWithHeader h f with e | ⟨⟨r, md⟩, f'⟩
    · rw [hs] at h1; cases e <;> exact h1
    · rw [hs] at h1
      obtain ⟨a, h2, h3, h4⟩ := h1
      exact ⟨a, h2, ⟨h3.1, h3.2, hfin hs⟩, h4⟩
  · obtain ⟨r, md⟩ := a
    obtain ⟨rfl, _, _⟩ := Spec.metadata_state hm
    rfl

theorem Flows.metadata (hlaw : EofLaw β) :
    Flows (fun x y => Region y.1 x.1 ∧ x.2 = y.2 ∧ y.1.s.fin = .eof) (P.metadata : P β (Parser Cursor × Metadata)) Flow.metadata := by
  refine Flows.bind (Flows.drain Refines.header (Exhausts.header hlaw) KeepsFin.header) fun h _ e => ?_
  subst e
  exact Flows.metadataWithHeader hlaw h

theorem Flows.recordWithHeader (hlaw : EofLaw β) {O : Type} {v : Visitor Cow O} {R : O → Record List × Metadata → Prop} (h : Header)
    (hr : Refines R (P.recordWithHeader v h : P β O) (Spec.recordWithHeader h)) :
    Flows R (P.recordWithHeader v h : P β O) (Flow.framed h (Spec.recordWithHeader h)) := by
  refine Flows.framed hr (fun f a f' hm => ?_) fun p f hp hk => P.recordWithHeader_drained hlaw v hp hk h
  unfold Spec.recordWithHeader at hm
  rcases hs : Spec.metadataWithHeader h f with e | ⟨⟨r, md⟩, g⟩
  · rw [hs] at hm; cases hm
  · obtain ⟨rfl, _, _⟩ := Spec.metadata_state hs
    rw [hs] at hm
    dsimp only at hm
    split at hm
    · cases hm
    · cases hm; rfl

theorem Flows.record (hlaw : EofLaw β) : Flows (fun x y => x.view = y.1) (P.parseRecord : P β (Record Cow)) Flow.record := by
  refine Flows.bind (Flows.drain Refines.header (Exhausts.header hlaw) KeepsFin.header) fun h _ e => ?_
  subst e
  exact Flows.recordWithHeader hlaw h (Refines.recordWithHeader h)

theorem Flows.attempt {m : P β α} {s : Flow α} (h : Flows Eq m s) : Flows Eq (P.attempt m) (Flow.attempt s) := by
  intro p f hp hk
  have h1 := h p f hp hk
  unfold Flow.attempt
  rcases hs : s f with _ | ⟨e | c, f'⟩
  · trivial
  · rw [hs] at h1
    obtain ⟨h2, h3, h4⟩ := h1
    unfold P.attempt
    rw [h2]
    exact ⟨⟨_, rfl, rfl⟩, h3, h4⟩
  · rw [hs] at h1
    obtain ⟨⟨a, h2, rfl⟩, h3, h4⟩ := h1
    unfold P.attempt
    rw [h2]
    exact ⟨⟨_, rfl, rfl⟩, h3, h4⟩

theorem Flows.attemptOn {δ : Type} [ParseBuf δ] [Lawful δ] {m : P δ α} {s : Flow α} (h : Flows Eq m s) {c : Parser δ} {r : Flat}
    (hc : RepP c r) (hr : r.s.fin = .eof) : Flows Eq (P.attemptOn c m : P β (Except ParseError α)) (Flow.attemptOn r s) := by
  intro p f hp hk
  have h1 := h c r hc (by rw [hr]; rfl)
  unfold Flow.attemptOn
  rcases hs : s r with _ | ⟨e | a, r'⟩
  · trivial
  · rw [hs] at h1
    unfold P.attemptOn
    rw [h1.1]
    exact ⟨⟨_, rfl, rfl⟩, hp, hk⟩
  · rw [hs] at h1
    obtain ⟨⟨a, h2, rfl⟩, _⟩ := h1
    unfold P.attemptOn
    rw [h2]
    exact ⟨⟨_, rfl, rfl⟩, hp, hk⟩

end Perf
