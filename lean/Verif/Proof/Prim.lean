import Verif.Proof.Lawful
/-!
# What the primitive parser operations do on a lawful buffer
-/
namespace Perf

/-- A user supplied `Endian` that claims to be native reads integers like the host does. -/
def ParseConfig.Wf (c : ParseConfig) : Prop :=
  c.endian.isNative = true → ∀ bs, bs.length = 8 → c.endian.conv64 bs = fromOrder c.host 64 bs

variable {β : Type} [ParseBuf β] [Lawful β] {α γ T : Type}

/-- The parser `p` stands for the flat state `f`. -/
structure RepP (p : Parser β) (f : Flat) : Prop where
  rep : Lawful.Rep p.data f.s
  off : p.data.offset = f.off
  cfg : p.config = f.cfg
  wf : f.cfg.Wf

/-- No hint bound is lost going from `p` to `q`. -/
def HintMono (p q : Parser β) : Prop := ∀ B, HintLe p.data B → HintLe q.data B

omit [Lawful β] in
theorem HintMono.refl (p : Parser β) : HintMono p p := fun _ h => h
omit [Lawful β] in
theorem HintMono.trans {p q r : Parser β} (h : HintMono p q) (h' : HintMono q r) : HintMono p r :=
  fun B hB => h' B (h B hB)

/-! ## Flat states -/

theorem Stream.drop_zero (s : Stream) : s.drop 0 = s := by
  simp [Stream.drop, Al.add_zero]

theorem Stream.drop_drop (s : Stream) (i j : Nat) : (s.drop i).drop j = s.drop (i + j) := by
  simp [Stream.drop, Al.add_add, List.drop_drop]

@[simp] theorem Flat.adv_zero (f : Flat) : f.adv 0 = f := by
  simp [Flat.adv, Stream.drop_zero]

theorem Flat.adv_adv (f : Flat) (i j : Nat) : (f.adv i).adv j = f.adv (i + j) := by
  simp [Flat.adv, Stream.drop_drop, Nat.add_assoc]

@[simp] theorem Flat.adv_bytes (f : Flat) (k : Nat) : (f.adv k).s.bytes = f.s.bytes.drop k := rfl
@[simp] theorem Flat.adv_fin (f : Flat) (k : Nat) : (f.adv k).s.fin = f.s.fin := rfl
@[simp] theorem Flat.adv_cfg (f : Flat) (k : Nat) : (f.adv k).cfg = f.cfg := rfl
@[simp] theorem Flat.adv_off (f : Flat) (k : Nat) : (f.adv k).off = f.off + k := rfl
@[simp] theorem Flat.adv_al (f : Flat) (k : Nat) : (f.adv k).s.al = f.s.al.add k := rfl

/-! ## Sequencing -/

omit [ParseBuf β] [Lawful β] in
theorem P.bind_ok {m : P β α} {k : α → P β γ} {p q : Parser β} {a : α} {l : List Nat} (h : m p = ⟨.ok a, q, l⟩) :
    (m >>= k) p = ⟨(k a q).res, (k a q).st, l ++ (k a q).log⟩ := by
  show P.bind m k p = _
  simp [P.bind, h]

omit [ParseBuf β] [Lawful β] in
theorem P.bind_err {m : P β α} {k : α → P β γ} {p q : Parser β} {e : Fault} {l : List Nat}
    (h : m p = ⟨.error e, q, l⟩) : (m >>= k) p = ⟨.error e, q, l⟩ := by
  show P.bind m k p = _
  simp [P.bind, h]

omit [ParseBuf β] [Lawful β] in
theorem P.bind_nil {m : P β α} {k : α → P β γ} {p q : Parser β} {a : α} (h : m p = ⟨.ok a, q, []⟩) :
    (m >>= k) p = k a q := by
  rw [P.bind_ok h]; simp

omit [ParseBuf β] [Lawful β] in
theorem P.pure_run (a : α) (p : Parser β) : (pure a : P β α) p = ⟨.ok a, p, []⟩ := rfl

omit [ParseBuf β] [Lawful β] in
theorem P.ite_pos {c : Prop} [Decidable c] (h : c) (a b : P β α) (p : Parser β) :
    (if c then a else b : P β α) p = a p := by rw [if_pos h]

omit [ParseBuf β] [Lawful β] in
theorem P.ite_neg {c : Prop} [Decidable c] (h : ¬ c) (a b : P β α) (p : Parser β) :
    (if c then a else b : P β α) p = b p := by rw [if_neg h]

omit [ParseBuf β] [Lawful β] in
/-- Decompose a run. -/
theorem P.run_eq (o : Out β α) {r : Except Fault α} (h : o.res = r) : o = ⟨r, o.st, o.log⟩ := by
  cases o; simp_all

/-! ## `chunk` and `advance` -/

/-- The two outcomes of `chunk`. -/
theorem P.chunk_cases {p : Parser β} {f : Flat} (h : RepP p f) :
    (f.s.bytes = [] ∧ ∃ q, P.chunk p = ⟨.error (.err f.s.fin), q, []⟩) ∨
    (∃ c q, P.chunk p = ⟨.ok c, q, []⟩ ∧ c.data ≠ [] ∧ c.data <+: f.s.bytes ∧ f.s.al.Allows c.loc ∧ RepP q f ∧
      ParseBuf.steps q.data ≤ ParseBuf.steps p.data ∧ HintMono p q ∧
      ∀ k, k ≤ c.data.length → ∃ q', P.advance k q = ⟨.ok (), q', []⟩ ∧ RepP q' (f.adv k) ∧
        ParseBuf.steps q'.data + k ≤ ParseBuf.steps q.data ∧ HintMono q q') := by
  have hl := Lawful.chunk_law p.data f.s h.rep
  have hoff : (ParseBuf.chunk p.data).2.offset = p.data.offset := rfl
  rcases hc : ParseBuf.chunk p.data with ⟨r, d⟩
  rw [hc] at hl hoff
  match r, hl with
  | .ok c, ⟨h1, h2, h3, h4, h5, h6, h7⟩ =>
    refine .inr ⟨c, { p with data := d }, by simp [P.chunk, hc], h1, h2, h3, ⟨h4, hoff.trans h.off, h.cfg, h.wf⟩, h5,
      fun B hB x hx => hB x (by rw [← h6]; exact hx), fun k hk => ?_⟩
    obtain ⟨d', ha, hr, hs, hh⟩ := h7 k hk
    refine ⟨{ p with data := d' }, by simp [P.advance, ha], ⟨hr, ?_, h.cfg, h.wf⟩, hs, hh⟩
    have : ParseBuf.advance d k = (ParseBuf.advance d.buf k).map (fun b => (⟨b, d.offset + k⟩ : Tracking β)) := rfl
    rw [this] at ha
    cases hb : ParseBuf.advance d.buf k with
    | none => rw [hb] at ha; cases ha
    | some b =>
      rw [hb] at ha
      simp only [Option.map_some, Option.some.injEq] at ha
      subst ha
      show d.offset + k = f.off + k
      rw [hoff, h.off]
  | .error (.err e), ⟨h1, h2⟩ =>
    subst h2
    exact .inl ⟨h1, { p with data := d }, by simp [P.chunk, hc]⟩

/-- `chunk` on a nonempty stream. -/
theorem P.chunk_some {p : Parser β} {f : Flat} (h : RepP p f) (hne : f.s.bytes ≠ []) :
    ∃ c q, P.chunk p = ⟨.ok c, q, []⟩ ∧ c.data ≠ [] ∧ c.data <+: f.s.bytes ∧ f.s.al.Allows c.loc ∧ RepP q f ∧
      ParseBuf.steps q.data ≤ ParseBuf.steps p.data ∧ HintMono p q ∧
      ∀ k, k ≤ c.data.length → ∃ q', P.advance k q = ⟨.ok (), q', []⟩ ∧ RepP q' (f.adv k) ∧
        ParseBuf.steps q'.data + k ≤ ParseBuf.steps q.data ∧ HintMono q q' := by
  rcases P.chunk_cases h with ⟨h1, _⟩ | h1
  · exact absurd h1 hne
  · exact h1

/-- `chunk` on an empty stream. -/
theorem P.chunk_none {p : Parser β} {f : Flat} (h : RepP p f) (he : f.s.bytes = []) :
    ∃ q, P.chunk p = ⟨.error (.err f.s.fin), q, []⟩ := by
  rcases P.chunk_cases h with ⟨_, h1⟩ | ⟨c, q, _, h2, h3, _⟩
  · exact h1
  · rw [he] at h3
    exact absurd (List.prefix_nil.mp h3) h2

/-- `chunk` at the end of a buffer that keeps reporting `Eof`. -/
theorem P.chunk_eof (hlaw : EofLaw β) {p : Parser β} {f : Flat} (h : RepP p f)
    (he : f.s.bytes = []) (hk : f.s.fin.kind = .eof) :
    ∃ q, P.chunk p = ⟨.error (.err f.s.fin), q, []⟩ ∧ RepP q f ∧ HintMono p q := by
  obtain ⟨q, hq⟩ := P.chunk_none h he
  have h1 := hlaw p.data.buf f.s h.rep he hk
  have h2 : q = { p with data := (ParseBuf.chunk p.data).2 } := (congrArg Out.st hq).symm
  refine ⟨q, hq, ?_, ?_⟩
  · rw [h2]; exact ⟨h1.1, h.off, h.cfg, h.wf⟩
  · rw [h2]; exact fun B hB x hx => hB x (h1.2.symm.trans hx)

/-! ## Loops that take a number of bytes -/

/-- `o` took `n` bytes with result `a`, or failed because the stream is too short. -/
def Takes (p : Parser β) (f : Flat) (n : Nat) (o : Out β α) (a : α) : Prop :=
  if n ≤ f.s.bytes.length then o.res = .ok a ∧ RepP o.st (f.adv n) ∧ HintMono p o.st
  else o.res = .error (.err f.s.fin)

theorem Takes.of_ok {p : Parser β} {f : Flat} {n : Nat} {o : Out β α} {a : α} (h : n ≤ f.s.bytes.length)
    (h' : o.res = .ok a ∧ RepP o.st (f.adv n) ∧ HintMono p o.st) : Takes p f n o a := by
  rw [Takes, if_pos h]; exact h'

theorem Takes.of_err {p : Parser β} {f : Flat} {n : Nat} {o : Out β α} {a : α} (h : f.s.bytes.length < n)
    (h' : o.res = .error (.err f.s.fin)) : Takes p f n o a := by
  rw [Takes, if_neg (by omega)]; exact h'

/-- One more piece taken in front. -/
theorem Takes.step {p q : Parser β} {f : Flat} {n k : Nat} {o : Out β α} {a : α} (hq : HintMono p q)
    (hk : k ≤ n) (hkl : k ≤ f.s.bytes.length) (h : Takes q (f.adv k) (n - k) o a) : Takes p f n o a := by
  unfold Takes at h ⊢
  simp only [Flat.adv_bytes, List.length_drop, Flat.adv_adv, Flat.adv_fin] at h
  by_cases hn : n ≤ f.s.bytes.length
  · rw [if_pos (by omega)] at h
    rw [if_pos hn]
    have : k + (n - k) = n := by omega
    rw [this] at h
    exact ⟨h.1, h.2.1, hq.trans h.2.2⟩
  · rw [if_neg (by omega)] at h
    rw [if_neg hn]
    exact h

theorem List.take_eq_prefix {l₁ l₂ : List α} (h : l₁ <+: l₂) {k : Nat} (hk : k ≤ l₁.length) : l₁.take k = l₂.take k := by
  obtain ⟨t, rfl⟩ := h
  rw [List.take_append_of_le_length hk]

theorem List.take_split (l : List α) {k n : Nat} (h : k ≤ n) : l.take k ++ (l.drop k).take (n - k) = l.take n := by
  have : n = k + (n - k) := by omega
  rw [this, List.take_add]
  simp

theorem P.toSliceLoop_takes : ∀ (fuel len : Nat) (w : List Byte) (p : Parser β) (f : Flat), RepP p f →
    ParseBuf.steps p.data < fuel →
    Takes p f len (P.toSliceLoop fuel len w p) (w ++ f.s.bytes.take len) ∧ (P.toSliceLoop fuel len w p).log = [] := by
  intro fuel
  induction fuel with
  | zero => intro len w p f h hs; omega
  | succ fuel ih =>
    intro len w p f h hs
    unfold P.toSliceLoop
    by_cases hl : len = 0
    · subst hl
      simp only [if_pos]
      exact ⟨.of_ok (Nat.zero_le _) ⟨by simp [P.pure_run], by rw [Flat.adv_zero]; exact h, .refl _⟩, rfl⟩
    · simp only [if_neg hl]
      by_cases he : f.s.bytes = []
      · obtain ⟨q, hq⟩ := P.chunk_none h he
        rw [P.bind_err hq]
        exact ⟨.of_err (by simp [he]; omega) rfl, rfl⟩
      · obtain ⟨c, q, hq, hcne, hpre, _, hrep, hst, hm, hadv⟩ := P.chunk_some h he
        rw [P.bind_nil hq]
        obtain ⟨q', hq', hrep', hst', hm'⟩ := hadv (min c.data.length len) (Nat.min_le_left _ _)
        rw [P.bind_nil hq']
        have hpos : 0 < c.data.length := List.length_pos_iff.mpr hcne
        have := ih (len - min c.data.length len) (w ++ c.data.take (min c.data.length len)) q' _ hrep' (by omega)
        refine ⟨?_, this.2⟩
        have h2 := Takes.step (hm.trans hm') (Nat.min_le_right _ _)
          (Nat.le_trans (Nat.min_le_left _ _) hpre.length_le) this.1
        rw [List.take_eq_prefix hpre (Nat.min_le_left _ _), List.append_assoc, Flat.adv_bytes,
          List.take_split _ (Nat.min_le_right _ _)] at h2
        rw [List.take_eq_prefix hpre (Nat.min_le_left _ _)]
        exact h2

omit [Lawful β] in
theorem P.fuel_run (p : Parser β) : P.fuel p = ⟨.ok (ParseBuf.steps p.data + 1), p, []⟩ := rfl
omit [Lawful β] in
theorem P.hint_run (p : Parser β) : P.hint p = ⟨.ok (ParseBuf.hint p.data), p, []⟩ := rfl
omit [ParseBuf β] [Lawful β] in
theorem P.alloc_run (n : Nat) (p : Parser β) : P.alloc n p = ⟨.ok (), p, [n]⟩ := rfl
omit [ParseBuf β] [Lawful β] in
theorem P.config_run (p : Parser β) : P.config p = ⟨.ok p.config, p, []⟩ := rfl
omit [ParseBuf β] [Lawful β] in
theorem P.offset_run (p : Parser β) : P.offset p = ⟨.ok p.data.offset, p, []⟩ := rfl

theorem P.toSlice_takes {p : Parser β} {f : Flat} (h : RepP p f) (len : Nat) :
    Takes p f len (P.toSlice len p) (f.s.bytes.take len) ∧ (P.toSlice len p).log = [] := by
  unfold P.toSlice
  rw [P.bind_nil (P.fuel_run p)]
  exact P.toSliceLoop_takes _ len [] p f h (by omega)

theorem P.bytesSlowLoop_takes : ∀ (fuel len : Nat) (w : List Byte) (p : Parser β) (f : Flat), RepP p f →
    ParseBuf.steps p.data < fuel →
    Takes p f len (P.bytesSlowLoop fuel len w p) (w ++ f.s.bytes.take len) ∧ (P.bytesSlowLoop fuel len w p).log = [] := by
  intro fuel
  induction fuel with
  | zero => intro len w p f h hs; omega
  | succ fuel ih =>
    intro len w p f h hs
    unfold P.bytesSlowLoop
    by_cases hl : len = 0
    · subst hl
      simp only [if_pos]
      exact ⟨.of_ok (Nat.zero_le _) ⟨by simp [P.pure_run], by rw [Flat.adv_zero]; exact h, .refl _⟩, rfl⟩
    · simp only [if_neg hl]
      by_cases he : f.s.bytes = []
      · obtain ⟨q, hq⟩ := P.chunk_none h he
        rw [P.bind_err hq]
        exact ⟨.of_err (by simp [he]; omega) rfl, rfl⟩
      · obtain ⟨c, q, hq, hcne, hpre, _, hrep, hst, hm, hadv⟩ := P.chunk_some h he
        rw [P.bind_nil hq]
        have hpos : 0 < c.data.length := List.length_pos_iff.mpr hcne
        have htr : (c.truncate len).data = c.data.take (min c.data.length len) := by
          unfold Chunk.truncate
          split
          · rename_i hle; rw [Nat.min_eq_left hle, List.take_length]
          · rename_i hle; rw [Nat.min_eq_right (by omega)]
        have htl : (c.truncate len).data.length = min c.data.length len := by
          rw [htr, List.length_take]; omega
        simp only [htl]
        obtain ⟨q', hq', hrep', hst', hm'⟩ := hadv (min c.data.length len) (Nat.min_le_left _ _)
        rw [P.bind_nil hq', htr]
        have := ih (len - min c.data.length len) (w ++ c.data.take (min c.data.length len)) q' _ hrep' (by omega)
        refine ⟨?_, this.2⟩
        have h2 := Takes.step (hm.trans hm') (Nat.min_le_right _ _)
          (Nat.le_trans (Nat.min_le_left _ _) hpre.length_le) this.1
        rw [List.take_eq_prefix hpre (Nat.min_le_left _ _), List.append_assoc, Flat.adv_bytes,
          List.take_split _ (Nat.min_le_right _ _)] at h2
        rw [List.take_eq_prefix hpre (Nat.min_le_left _ _)]
        exact h2

theorem P.ignoredLoop_takes : ∀ (fuel len : Nat) (p : Parser β) (f : Flat), RepP p f →
    ParseBuf.steps p.data < fuel →
    Takes p f len (P.ignoredLoop fuel len p) () ∧ (P.ignoredLoop fuel len p).log = [] := by
  intro fuel
  induction fuel with
  | zero => intro len p f h hs; omega
  | succ fuel ih =>
    intro len p f h hs
    unfold P.ignoredLoop
    by_cases hl : len = 0
    · subst hl
      simp only [if_pos]
      exact ⟨.of_ok (Nat.zero_le _) ⟨by simp [P.pure_run], by rw [Flat.adv_zero]; exact h, .refl _⟩, rfl⟩
    · simp only [if_neg hl]
      by_cases he : f.s.bytes = []
      · obtain ⟨q, hq⟩ := P.chunk_none h he
        rw [P.bind_err hq]
        exact ⟨.of_err (by simp [he]; omega) rfl, rfl⟩
      · obtain ⟨c, q, hq, hcne, hpre, _, hrep, hst, hm, hadv⟩ := P.chunk_some h he
        rw [P.bind_nil hq]
        obtain ⟨q', hq', hrep', hst', hm'⟩ := hadv (min c.data.length len) (Nat.min_le_left _ _)
        rw [P.bind_nil hq']
        have hpos : 0 < c.data.length := List.length_pos_iff.mpr hcne
        have := ih (len - min c.data.length len) q' _ hrep' (by omega)
        exact ⟨Takes.step (hm.trans hm') (Nat.min_le_right _ _)
          (Nat.le_trans (Nat.min_le_left _ _) hpre.length_le) this.1, this.2⟩

theorem P.bytesIgnored_takes {p : Parser β} {f : Flat} (h : RepP p f) (len : Nat) :
    Takes p f len (P.bytesIgnored len p) () ∧ (P.bytesIgnored len p).log = [] := by
  unfold P.bytesIgnored
  rw [P.bind_nil (P.fuel_run p)]
  exact P.ignoredLoop_takes _ len p f h (by omega)

/-! ## `parse_array` and `parse_bytes` -/

/-- Like `Takes`, but an empty stream is an error even when nothing is asked for. -/
def TakesNe (p : Parser β) (f : Flat) (n : Nat) (o : Out β α) (R : α → Prop) : Prop :=
  if f.s.bytes = [] then o.res = .error (.err f.s.fin) else ∃ a, R a ∧ Takes p f n o a

theorem P.array_takes {p : Parser β} {f : Flat} (h : RepP p f) (n : Nat) :
    TakesNe p f n (P.array n p) (· = f.s.bytes.take n) ∧ (P.array n p).log = [] := by
  unfold P.array TakesNe
  by_cases he : f.s.bytes = []
  · rw [if_pos he]
    obtain ⟨q, hq⟩ := P.chunk_none h he
    rw [P.bind_err hq]
    exact ⟨rfl, rfl⟩
  · rw [if_neg he]
    obtain ⟨c, q, hq, hcne, hpre, _, hrep, hst, hm, hadv⟩ := P.chunk_some h he
    rw [P.bind_nil hq]
    by_cases hn : c.data.length < n
    · simp only [if_pos hn]
      have := P.toSlice_takes hrep n
      refine ⟨⟨_, rfl, ?_⟩, this.2⟩
      have h3 := this.1
      unfold Takes at h3 ⊢
      split at h3
      · rename_i hle; rw [if_pos hle]; exact ⟨h3.1, h3.2.1, hm.trans h3.2.2⟩
      · rename_i hle; rw [if_neg hle]; exact h3
    · simp only [if_neg hn]
      obtain ⟨q', hq', hrep', hst', hm'⟩ := hadv n (by omega)
      rw [P.bind_nil hq', P.pure_run, List.take_eq_prefix hpre (by omega)]
      exact ⟨⟨_, rfl, .of_ok (Nat.le_trans (by omega) hpre.length_le) ⟨rfl, hrep', hm.trans hm'⟩⟩, rfl⟩

/-- The outcome of `parse_bytes_direct`: the bytes, borrowed, or nothing consumed. -/
theorem P.bytesDirect_cases {p : Parser β} {f : Flat} (h : RepP p f) (n : Nat) :
    (f.s.bytes = [] ∧ ∃ q, P.bytesDirect n p = ⟨.error (.err f.s.fin), q, []⟩) ∨
    (f.s.bytes ≠ [] ∧ ∃ q, P.bytesDirect n p = ⟨.ok none, q, []⟩ ∧ RepP q f ∧ HintMono p q) ∨
    (f.s.bytes ≠ [] ∧ n ≤ f.s.bytes.length ∧ ∃ addr q, P.bytesDirect n p = ⟨.ok (some (addr, f.s.bytes.take n)), q, []⟩ ∧
      f.s.al.Allows (.external addr) ∧ RepP q (f.adv n) ∧ HintMono p q) := by
  unfold P.bytesDirect
  by_cases he : f.s.bytes = []
  · obtain ⟨q, hq⟩ := P.chunk_none h he
    rw [P.bind_err hq]
    exact .inl ⟨he, q, rfl⟩
  · obtain ⟨c, q, hq, hcne, hpre, hal, hrep, hst, hm, hadv⟩ := P.chunk_some h he
    rw [P.bind_nil hq]
    refine .inr ?_
    cases hloc : c.loc with
    | temporary => exact .inl ⟨he, q, rfl, hrep, hm⟩
    | external addr =>
      by_cases hn : c.data.length < n
      · simp only [if_pos hn]
        exact .inl ⟨he, q, rfl, hrep, hm⟩
      · simp only [if_neg hn]
        obtain ⟨q', hq', hrep', hst', hm'⟩ := hadv n (by omega)
        refine .inr ⟨he, Nat.le_trans (by omega) hpre.length_le, addr, q', ?_, ?_, hrep', hm.trans hm'⟩
        · rw [P.bind_nil hq', P.pure_run, List.take_eq_prefix hpre (by omega)]
        · rw [← hloc]; exact hal

theorem P.bytesSlow_takes {p : Parser β} {f : Flat} (h : RepP p f) (len : Nat) :
    Takes p f len (P.bytesSlow len p) (f.s.bytes.take len) ∧
    (P.bytesSlow len p).log = [min ((ParseBuf.hint p.data).getD 16384) len] := by
  have hb : P.safeCapacityBound 1 p = ⟨.ok ((ParseBuf.hint p.data).getD 16384 / 1), p, []⟩ := rfl
  unfold P.bytesSlow
  rw [P.bind_nil hb, P.bind_ok (P.alloc_run _ p), P.bind_nil (P.fuel_run p)]
  have := P.bytesSlowLoop_takes (ParseBuf.steps p.data + 1) len [] p f h (by omega)
  simp only [this.2, Nat.div_one, List.append_nil]
  refine ⟨?_, trivial⟩
  have h3 := this.1
  unfold Takes at h3 ⊢
  split at h3
  · rename_i hle; rw [if_pos hle]; exact h3
  · rename_i hle; rw [if_neg hle]; exact h3

/-- All memory requests are bounded. -/
def LogLe (l : List Nat) (B : Nat) : Prop := ∀ n ∈ l, n ≤ max 16384 B

theorem LogLe.nil (B : Nat) : LogLe [] B := by simp [LogLe]
theorem LogLe.append {l l' : List Nat} {B : Nat} (h : LogLe l B) (h' : LogLe l' B) : LogLe (l ++ l') B := by
  intro n hn
  rcases List.mem_append.mp hn with h1 | h1
  · exact h n h1
  · exact h' n h1

theorem P.bytes_takes {p : Parser β} {f : Flat} (h : RepP p f) (n : Nat) :
    TakesNe p f n (P.bytes n p) (fun c => c.data = f.s.bytes.take n) ∧
    ∀ B, HintLe p.data B → LogLe (P.bytes n p).log B := by
  unfold P.bytes TakesNe
  rcases P.bytesDirect_cases h n with ⟨he, q, hq⟩ | ⟨he, q, hq, hrep, hm⟩ | ⟨he, hle, addr, q, hq, hal, hrep, hm⟩
  · rw [if_pos he, P.bind_err hq]
    exact ⟨rfl, fun B _ => LogLe.nil B⟩
  · rw [if_neg he, P.bind_nil hq]
    simp only
    rw [P.bind_nil (P.hint_run q)]
    by_cases hh : P.hintAtLeast (ParseBuf.hint q.data) n = true
    · rw [P.ite_pos hh]
      have ht := P.toSlice_takes hrep n
      refine ⟨⟨.owned (f.s.bytes.take n), rfl, ?_⟩, ?_⟩
      · have ht1 := ht.1
        rw [P.bind_ok (P.alloc_run n q)]
        unfold Takes at ht1 ⊢
        by_cases hle : n ≤ f.s.bytes.length
        · rw [if_pos hle] at ht1 ⊢
          rw [P.bind_ok (P.run_eq _ ht1.1)]
          exact ⟨rfl, ht1.2.1, hm.trans ht1.2.2⟩
        · rw [if_neg hle] at ht1 ⊢
          rw [P.bind_err (P.run_eq _ ht1)]
      · intro B hB
        have hn : n ≤ B := by
          cases hhint : ParseBuf.hint q.data with
          | none => rw [hhint] at hh; cases hh
          | some x =>
            rw [hhint] at hh
            have := hm B hB x hhint
            simp [P.hintAtLeast] at hh; omega
        rw [P.bind_ok (P.alloc_run n q)]
        have : ((P.toSlice n >>= fun bs => (pure (Cow.owned bs) : P β (Cow Byte))) q).log = [] := by
          cases hr : (P.toSlice n q).res with
          | ok a => rw [P.bind_ok (P.run_eq _ hr), ht.2]; rfl
          | error e => rw [P.bind_err (P.run_eq _ hr), ht.2]
        simp only [this, List.append_nil]
        intro m hm
        simp only [List.mem_singleton] at hm
        omega
    · rw [P.ite_neg hh]
      have ht := P.bytesSlow_takes hrep n
      refine ⟨⟨.owned (f.s.bytes.take n), rfl, ?_⟩, ?_⟩
      · have ht1 := ht.1
        unfold Takes at ht1 ⊢
        by_cases hle : n ≤ f.s.bytes.length
        · rw [if_pos hle] at ht1 ⊢
          rw [P.bind_ok (P.run_eq _ ht1.1)]
          exact ⟨rfl, ht1.2.1, hm.trans ht1.2.2⟩
        · rw [if_neg hle] at ht1 ⊢
          rw [P.bind_err (P.run_eq _ ht1)]
      · intro B hB
        have : ((P.bytesSlow n >>= fun bs => (pure (Cow.owned bs) : P β (Cow Byte))) q).log =
            [min ((ParseBuf.hint q.data).getD 16384) n] := by
          cases hr : (P.bytesSlow n q).res with
          | ok a => rw [P.bind_ok (P.run_eq _ hr), ht.2]; rfl
          | error e => rw [P.bind_err (P.run_eq _ hr), ht.2]
        rw [this]
        intro m hmm
        simp only [List.mem_singleton] at hmm
        subst hmm
        cases hhint : ParseBuf.hint q.data with
        | none => simp only [Option.getD_none]; omega
        | some x =>
          have := hm B hB x hhint
          simp only [Option.getD_some]; omega
  · rw [if_neg he, P.bind_nil hq]
    refine ⟨⟨.borrowed (f.s.bytes.take n), rfl, .of_ok hle ⟨rfl, hrep, hm⟩⟩, fun B _ => LogLe.nil B⟩

end Perf
