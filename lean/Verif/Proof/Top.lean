import Verif.Proof.Dispatch
/-!
# The public entry points, from the header on
-/
namespace Perf
variable {β : Type} [ParseBuf β] [Lawful β] {O : Type}
open ParserM

/-! ## Integers, exactly -/

theorem P.array_run {p : Parser β} {f : Flat} (hp : RepP p f) {n : Nat} (h0 : 0 < n) (hn : n ≤ f.s.bytes.length) :
    ∃ q, P.array n p = ⟨.ok (f.s.bytes.take n), q, []⟩ ∧ RepP q (f.adv n) ∧ HintMono p q := by
  obtain ⟨h, hl⟩ := P.array_takes hp n
  unfold TakesNe at h
  have hne : f.s.bytes ≠ [] := by intro he; rw [he] at hn; simp at hn; omega
  rw [if_neg hne] at h
  obtain ⟨a, h1, h2⟩ := h
  subst h1
  unfold Takes at h2
  rw [if_pos hn] at h2
  exact ⟨_, by rw [P.run_eq _ h2.1, hl], h2.2.1, h2.2.2⟩

theorem P.array_short {p : Parser β} {f : Flat} (hp : RepP p f) {n : Nat} (hn : f.s.bytes.length < n) :
    (P.array n p).res = .error (.err f.s.fin) ∧ (P.array n p).log = [] := by
  obtain ⟨h, hl⟩ := P.array_takes hp n
  refine ⟨?_, hl⟩
  unfold TakesNe at h
  by_cases hne : f.s.bytes = []
  · rw [if_pos hne] at h; exact h
  · rw [if_neg hne] at h
    obtain ⟨a, h1, h2⟩ := h
    unfold Takes at h2
    rw [if_neg (by omega)] at h2
    exact h2

theorem P.u32_run {p : Parser β} {f : Flat} (hp : RepP p f) (hn : 4 ≤ f.s.bytes.length) :
    ∃ q, (parseU32 : P β U32) p = ⟨.ok (f.cfg.endian.conv32 (f.s.bytes.take 4)), q, []⟩ ∧ RepP q (f.adv 4) ∧
      HintMono p q := by
  obtain ⟨q, h1, h2, h3⟩ := P.array_run hp (n := 4) (by omega) hn
  refine ⟨q, ?_, h2, h3⟩
  unfold parseU32
  show (P.array 4 >>= fun a => P.config >>= fun cfg => pure (cfg.endian.conv32 a)) p = _
  rw [P.bind_nil h1, P.bind_nil (P.config_run q), P.pure_run, h2.cfg]
  rfl

theorem P.u16_run {p : Parser β} {f : Flat} (hp : RepP p f) (hn : 2 ≤ f.s.bytes.length) :
    ∃ q, (parseU16 : P β U16) p = ⟨.ok (f.cfg.endian.conv16 (f.s.bytes.take 2)), q, []⟩ ∧ RepP q (f.adv 2) ∧
      HintMono p q := by
  obtain ⟨q, h1, h2, h3⟩ := P.array_run hp (n := 2) (by omega) hn
  refine ⟨q, ?_, h2, h3⟩
  unfold parseU16
  show (P.array 2 >>= fun a => P.config >>= fun cfg => pure (cfg.endian.conv16 a)) p = _
  rw [P.bind_nil h1, P.bind_nil (P.config_run q), P.pure_run, h2.cfg]
  rfl

theorem P.u32_short {p : Parser β} {f : Flat} (hp : RepP p f) (hn : f.s.bytes.length < 4) :
    (parseU32 : P β U32) p = ⟨.error (.err f.s.fin), (P.array 4 p).st, []⟩ := by
  obtain ⟨h1, h2⟩ := P.array_short hp hn
  have h3 := P.run_eq _ h1
  rw [h2] at h3
  exact P.bind_err h3

theorem P.u16_short {p : Parser β} {f : Flat} (hp : RepP p f) (hn : f.s.bytes.length < 2) :
    (parseU16 : P β U16) p = ⟨.error (.err f.s.fin), (P.array 2 p).st, []⟩ := by
  obtain ⟨h1, h2⟩ := P.array_short hp hn
  have h3 := P.run_eq _ h1
  rw [h2] at h3
  exact P.bind_err h3

/-! ## The header -/

/-- The header stored in the first 8 bytes. -/
def headerAt (f : Flat) : Header :=
  { type_ := f.cfg.endian.conv32 (f.s.bytes.take 4)
    misc := f.cfg.endian.conv16 ((f.s.bytes.drop 4).take 2)
    size := f.cfg.endian.conv16 ((f.s.bytes.drop 6).take 2) }

theorem P.header_run {p : Parser β} {f : Flat} (hp : RepP p f) (hn : 8 ≤ f.s.bytes.length) :
    ∃ q, (parseHeader : P β Header) p = ⟨.ok (headerAt f), q, []⟩ ∧ RepP q (f.adv 8) ∧ HintMono p q := by
  obtain ⟨q1, h1, r1, m1⟩ := P.u32_run hp (by omega)
  obtain ⟨q2, h2, r2, m2⟩ := P.u16_run r1 (by simp; omega)
  obtain ⟨q3, h3, r3, m3⟩ := P.u16_run r2 (by simp; omega)
  refine ⟨q3, ?_, by simpa [Flat.adv_adv] using r3, (m1.trans m2).trans m3⟩
  unfold parseHeader
  rw [P.bind_nil h1, P.bind_nil h2, P.bind_nil h3, P.pure_run]
  simp [headerAt]

theorem P.header_short {p : Parser β} {f : Flat} (hp : RepP p f) (hn : f.s.bytes.length < 8) :
    (parseHeader : P β Header) p = ⟨.error (.err f.s.fin), ((parseHeader : P β Header) p).st, []⟩ := by
  have hr := Refines.header p f hp
  have hs : (parseHeader : Spec Header) f = .error (.err f.s.fin) := by
    have hb : ∀ (g : Flat) (n : Nat), g.s.bytes.length < n → Spec.bytes n g = .error (.err g.s.fin) := by
      intro g n h
      unfold Spec.bytes Spec.take
      split
      · rfl
      · rw [if_neg (by omega)]
    have hb' : ∀ (g : Flat) (n : Nat), 0 < n → n ≤ g.s.bytes.length → Spec.bytes n g = .ok (g.s.bytes.take n, g.adv n) := by
      intro g n h0 h
      unfold Spec.bytes Spec.take
      rw [if_neg (by intro he; rw [he] at h; simp at h; omega), if_pos h]
    have e32 : ∀ g : Flat, g.s.bytes.length < 4 → (parseU32 : Spec U32) g = .error (.err g.s.fin) :=
      fun g h => Spec.bind_err (hb g 4 h)
    have e16 : ∀ g : Flat, g.s.bytes.length < 2 → (parseU16 : Spec U16) g = .error (.err g.s.fin) :=
      fun g h => Spec.bind_err (hb g 2 h)
    have k32 : ∀ g : Flat, 4 ≤ g.s.bytes.length → ∃ x, (parseU32 : Spec U32) g = .ok (x, g.adv 4) :=
      fun g h => ⟨_, by unfold parseU32; show Spec.bind (Spec.bytes 4) _ g = _; simp only [Spec.bind, hb' g 4 (by omega) h]; rfl⟩
    have k16 : ∀ g : Flat, 2 ≤ g.s.bytes.length → ∃ x, (parseU16 : Spec U16) g = .ok (x, g.adv 2) :=
      fun g h => ⟨_, by unfold parseU16; show Spec.bind (Spec.bytes 2) _ g = _; simp only [Spec.bind, hb' g 2 (by omega) h]; rfl⟩
    unfold parseHeader
    by_cases h4 : f.s.bytes.length < 4
    · rw [Spec.bind_err (e32 f h4)]
    · obtain ⟨x, hx⟩ := k32 f (by omega)
      rw [Spec.bind_ok hx]
      by_cases h6 : f.s.bytes.length < 6
      · rw [Spec.bind_err (e16 _ (by simp; omega))]; rfl
      · obtain ⟨y, hy⟩ := k16 (f.adv 4) (by simp; omega)
        rw [Spec.bind_ok hy, Spec.bind_err (e16 _ (by simp; omega))]; rfl
  rw [hs] at hr
  have hl : ((parseHeader : P β Header) p).log = [] := by
    unfold parseHeader
    by_cases h4 : f.s.bytes.length < 4
    · rw [P.bind_err (P.u32_short hp h4)]
    · obtain ⟨q1, h1, r1, m1⟩ := P.u32_run hp (by omega)
      rw [P.bind_nil h1]
      by_cases h6 : f.s.bytes.length < 6
      · rw [P.bind_err (P.u16_short r1 (by simp; omega))]
      · obtain ⟨q2, h2, r2, m2⟩ := P.u16_run r1 (by simp; omega)
        rw [P.bind_nil h2, P.bind_err (P.u16_short r2 (by simp; omega))]
  have := P.run_eq _ hr
  rw [hl] at this
  exact this

/-! ## `parse_record` and `parse_metadata` -/

/-- After the header, `parse_record` is `parse_record_with_header`. -/
theorem P.record_run {p : Parser β} {f : Flat} (hp : RepP p f) (v : Visitor Cow O) :
    (f.s.bytes.length < 8 ∧ (P.record v p).res = .error (.err f.s.fin) ∧ (P.record v p).log = []) ∨
    (8 ≤ f.s.bytes.length ∧ ∃ q, RepP q (f.adv 8) ∧ HintMono p q ∧
      P.record v p = P.recordWithHeader v (headerAt f) q) := by
  rcases Nat.lt_or_ge f.s.bytes.length 8 with h | h
  · refine .inl ⟨h, ?_⟩
    unfold P.record
    rw [P.bind_err (P.header_short hp h)]
    exact ⟨rfl, rfl⟩
  · obtain ⟨q, h1, h2, h3⟩ := P.header_run hp h
    refine .inr ⟨h, q, h2, h3, ?_⟩
    unfold P.record
    rw [P.bind_nil h1]

theorem P.metadata_run {p : Parser β} {f : Flat} (hp : RepP p f) :
    (f.s.bytes.length < 8 ∧ (P.metadata p).res = .error (.err f.s.fin)) ∨
    (8 ≤ f.s.bytes.length ∧ ∃ q, RepP q (f.adv 8) ∧ P.metadata p = P.metadataWithHeader (headerAt f) q) := by
  rcases Nat.lt_or_ge f.s.bytes.length 8 with h | h
  · refine .inl ⟨h, ?_⟩
    unfold P.metadata
    rw [P.bind_err (P.header_short hp h)]
  · obtain ⟨q, h1, h2, h3⟩ := P.header_run hp h
    refine .inr ⟨h, q, h2, ?_⟩
    unfold P.metadata
    rw [P.bind_nil h1]

/-- The visitor behind `Parse for Record` always answers. -/
theorem recordVisitor_apply (r : Record Cow) (md : Metadata) (h : Record.OfType md.ty r) :
    (recordVisitor Cow).apply r md = .ok r := by
  cases r <;> first | rfl | (simp only [Record.OfType] at h; subst h; rfl)

end Perf
