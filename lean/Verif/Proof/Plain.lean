import Verif.Props.Chunking
/-!
# The parser told that the data is in the host's byte order, and not told

`f.plain` is the same flat state with `is_native` false. `Follows` relates the runs from `f` and from `f.plain`.
-/
namespace Perf

/-- The same configuration with an `Endian` that does not answer `is_native`, which is the default. -/
def ParseConfig.plain (c : ParseConfig) : ParseConfig := { c with endian := { c.endian with isNative := false } }
/-- The same state under that configuration. -/
def Flat.plain (f : Flat) : Flat := { f with cfg := f.cfg.plain }

/-- What `parse_slice` says about a list that does not fit the address space. -/
def overlong : ParseError := .custom .invalidRecord "array length in bytes larger than usize::MAX"

theorem ParseConfig.Wf.plain {c : ParseConfig} : c.plain.Wf := fun h => Bool.noConfusion h

variable {α γ T : Type}

/-- `g` is what is left of `f`. -/
structure LeftOf (f g : Flat) : Prop where
  fin : g.s.fin = f.s.fin
  len : g.s.bytes.length ≤ f.s.bytes.length

theorem LeftOf.refl (f : Flat) : LeftOf f f := ⟨rfl, Nat.le_refl _⟩
theorem LeftOf.trans {f g h : Flat} (a : LeftOf f g) (b : LeftOf g h) : LeftOf f h := ⟨b.fin.trans a.fin, Nat.le_trans b.len a.len⟩
theorem LeftOf.adv (f : Flat) (n : Nat) : LeftOf f (f.adv n) := ⟨rfl, by simp⟩

/-- The same outcome with and without. -/
def Exact (s s' : Spec α) : Prop := ∀ f, match s f with
  | .error e => s' f.plain = .error e
  | .ok (a, f') => s' f.plain = .ok (a, f'.plain) ∧ LeftOf f f'

/-- If the run in the host's byte order ends with a value, so does the other, with the same. If it fails, the other fails with the
same error; or the list is too long and the other runs out of data; or the list is empty and nothing follows it, and the
other accepts. -/
def Follows (s s' : Spec α) : Prop := ∀ f, f.s.bytes.length < usizeLimit → match s f with
  | .error .stuck => True
  | .error (.err e) => s' f.plain = .error (.err e) ∨ (e = overlong ∧ s' f.plain = .error (.err f.s.fin)) ∨
      (e = f.s.fin ∧ ∃ b g, s' f.plain = .ok (b, g) ∧ g.s.bytes = [] ∧ g.s.fin = f.s.fin)
  | .ok (a, f') => s' f.plain = .ok (a, f'.plain) ∧ LeftOf f f'

/-- At the end of the input: the end error, or nothing is read. -/
def AtEnd (s : Spec α) : Prop := ∀ g, g.s.bytes = [] →
  s g = .error (.err g.s.fin) ∨ ∃ b h, s g = .ok (b, h) ∧ h.s.bytes = [] ∧ h.s.fin = g.s.fin

/-- At the end of the input: the end error. -/
def Dies (s : Spec α) : Prop := ∀ g, g.s.bytes = [] → s g = .error (.err g.s.fin)

theorem Exact.follows {s s' : Spec α} (h : Exact s s') : Follows s s' := by
  intro f _
  have := h f
  rcases hs : s f with e | ⟨a, f'⟩ <;> rw [hs] at this
  · cases e with
    | stuck => trivial
    | err e => exact .inl this
  · exact this

theorem Exact.pure (a : α) : Exact (Pure.pure a : Spec α) (Pure.pure a) := fun f => ⟨rfl, .refl f⟩
theorem Exact.fail (e : ParseError) : Exact (Spec.fail e : Spec α) (Spec.fail e) := fun _ => rfl

theorem Exact.bind {s s' : Spec α} {k k' : α → Spec γ} (h : Exact s s') (hk : ∀ a, Exact (k a) (k' a)) : Exact (s >>= k) (s' >>= k') := by
  intro f
  have h1 := h f
  rcases hs : s f with e | ⟨a, f'⟩ <;> rw [hs] at h1
  · rw [Spec.bind_err hs]; exact Spec.bind_err h1
  · have h2 := hk a f'
    rw [Spec.bind_ok hs, Spec.bind_ok h1.1]
    rcases hr : k a f' with e | ⟨b, f''⟩ <;> rw [hr] at h2
    · exact h2
    · exact ⟨h2.1, h1.2.trans h2.2⟩

theorem Exact.config {k k' : ParseConfig → Spec γ} (hk : ∀ c, Exact (k c) (k' c.plain)) : Exact (Spec.config >>= k) (Spec.config >>= k') :=
  fun f => hk f.cfg f

theorem Exact.ite {c : Prop} [Decidable c] {s t s' t' : Spec α} (h : Exact s s') (h' : Exact t t') : Exact (if c then s else t) (if c then s' else t') := by
  split
  · exact h
  · exact h'

theorem Exact.bytes (n : Nat) : Exact (Spec.bytes n) (Spec.bytes n) := by
  intro f
  have hb : f.plain.s = f.s := rfl
  unfold Spec.bytes Spec.take
  rw [hb]
  by_cases he : f.s.bytes = []
  · simp only [if_pos he]
  · simp only [if_neg he]
    by_cases hn : n ≤ f.s.bytes.length
    · simp only [if_pos hn]; exact ⟨rfl, .adv _ _⟩
    · simp only [if_neg hn]

theorem Exact.u16 : Exact (parseU16 : Spec U16) parseU16 := .bind (.bytes 2) fun _ => .config fun _ => .pure _
theorem Exact.u32 : Exact (parseU32 : Spec U32) parseU32 := .bind (.bytes 4) fun _ => .config fun _ => .pure _
theorem Exact.u64 : Exact (parseU64 : Spec U64) parseU64 := .bind (.bytes 8) fun _ => .config fun _ => .pure _
theorem Exact.cpu : Exact (parseCpu : Spec U32) parseCpu := .bind .u32 fun _ => .bind .u32 fun _ => .pure _
theorem Exact.parseIf {s s' : Spec α} (c : Bool) (h : Exact s s') : Exact (Perf.parseIf c s) (Perf.parseIf c s') := by
  cases c with
  | true => exact .bind h fun _ => .pure _
  | false => exact .pure _

theorem Exact.padded {s s' : Spec α} (n : Nat) (h : Exact s s') : Exact (Spec.padded n s) (Spec.padded n s') := by
  intro f
  have h1 := h f
  unfold Spec.padded
  by_cases hn : n = 0
  · simp only [if_pos hn]
  simp only [if_neg hn]
  rcases hs : s f with e | ⟨a, f'⟩ <;> rw [hs] at h1
  · simp only [h1]
  · simp only [h1.1]
    have ho : f'.plain.off - f.plain.off = f'.off - f.off := rfl
    rw [ho]
    by_cases h0 : (f'.off - f.off) % n = 0
    · simp only [if_pos h0]; exact ⟨trivial, h1.2⟩
    · simp only [if_neg h0]
      unfold Spec.take
      rw [show f'.plain.s = f'.s from rfl]
      by_cases hl : n - (f'.off - f.off) % n ≤ f'.s.bytes.length
      · simp only [if_pos hl]; exact ⟨rfl, h1.2.trans (.adv _ _)⟩
      · simp only [if_neg hl]

theorem Exact.repeated {s s' : Spec T} (h : Exact s s') : ∀ n, Exact (Spec.repeated s n) (Spec.repeated s' n)
  | 0 => .pure _
  | n + 1 => .bind h fun _ => .bind (.repeated h n) fun _ => .pure _

theorem Exact.readValue : Exact (parseReadValue : Spec ReadValue) parseReadValue := by
  unfold parseReadValue
  refine .config fun c => ?_
  refine .ite (.fail _) (.ite (.fail _) ?_)
  exact .bind .u64 fun _ => .bind (.parseIf _ .u64) fun _ => .bind (.parseIf _ .u64) fun _ => .bind (.parseIf _ .u64) fun _ =>
    .bind (.parseIf _ .u64) fun _ => .pure _

theorem Exact.stackUser : Exact (parseStackUser : Spec (List Byte)) parseStackUser :=
  .bind .u64 fun _ => .bind (.bytes _) fun _ => .bind (.ite (.pure _) .u64) fun _ => .ite (.fail _) (.pure _)

/-! ## The end of the input -/

theorem Dies.bytes (n : Nat) : Dies (Spec.bytes n) := fun g h => by unfold Spec.bytes; rw [if_pos h]
theorem Dies.bind {s : Spec α} {k : α → Spec γ} (h : Dies s) : Dies (s >>= k) := fun g hg => Spec.bind_err (h g hg)
theorem Dies.u64 : Dies (parseU64 : Spec U64) := Dies.bind (.bytes 8)
theorem Dies.atEnd {s : Spec α} (h : Dies s) : AtEnd s := fun g hg => .inl (h g hg)
theorem AtEnd.pure (a : α) : AtEnd (Pure.pure a : Spec α) := fun g h => .inr ⟨a, g, rfl, h, rfl⟩
theorem AtEnd.bind {s : Spec α} {k : α → Spec γ} (h : AtEnd s) (hk : ∀ a, AtEnd (k a)) : AtEnd (s >>= k) := by
  intro g hg
  rcases h g hg with h1 | ⟨b, i, h1, h2, h3⟩
  · exact .inl (Spec.bind_err h1)
  · rw [Spec.bind_ok h1]
    rw [← h3]
    exact hk b i h2
theorem AtEnd.parseIf {s : Spec α} (c : Bool) (h : AtEnd s) : AtEnd (Perf.parseIf c s) := by
  cases c with
  | true => exact .bind h fun _ => .pure _
  | false => exact .pure _
theorem Dies.padded {s : Spec α} (n : Nat) (hn : n ≠ 0) (h : Dies s) : Dies (Spec.padded n s) := by
  intro g hg
  unfold Spec.padded
  simp only [if_neg hn, h g hg]

/-! ## Lists -/

theorem Follows.slice {e : Elem T} {s : Spec T} (hi : ItemOk e s) (h : Exact s s) (n : Nat) : Follows (Spec.slice e s n) (Spec.slice e s n) := by
  intro f hl
  have hp : Spec.slice e s n f.plain = Spec.repeated s n f.plain := rfl
  rw [hp]
  unfold Spec.slice
  by_cases hn : f.cfg.endian.isNative = true
  · simp only [if_pos hn]
    by_cases h1 : n * e.size ≥ usizeLimit
    · simp only [if_pos h1]
      refine .inr (.inl ⟨rfl, ?_⟩)
      exact Spec.repeated_short hi n f.plain (Nat.lt_of_lt_of_le hl h1)
    · simp only [if_neg h1]
      by_cases h2 : f.s.bytes = []
      · simp only [if_pos h2]
        rcases Nat.eq_zero_or_pos n with rfl | h3
        · exact .inr (.inr ⟨trivial, [], f.plain, rfl, h2, rfl⟩)
        · refine .inl (Spec.repeated_short hi n f.plain ?_)
          show f.s.bytes.length < _
          rw [h2]
          exact Nat.mul_pos h3 hi.pos
      · simp only [if_neg h2]
        by_cases h3 : n ≠ 0 ∧ n * e.size ≤ f.s.bytes.length ∧ f.s.al.aligned = false
        · simp only [if_pos h3]
        · simp only [if_neg h3]
          exact (Exact.repeated h n).follows f hl
  · simp only [if_neg hn]
    exact (Exact.repeated h n).follows f hl

theorem Follows.bindExact {s s' : Spec α} {k k' : α → Spec γ} (h : Exact s s') (hk : ∀ a, Follows (k a) (k' a)) : Follows (s >>= k) (s' >>= k') := by
  intro f hl
  have h1 := h f
  rcases hs : s f with e | ⟨a, f'⟩ <;> rw [hs] at h1
  · rw [Spec.bind_err hs]
    cases e with
    | stuck => trivial
    | err e => exact .inl (Spec.bind_err h1)
  · have h2 := hk a f' (Nat.lt_of_le_of_lt h1.2.len hl)
    rw [Spec.bind_ok hs, Spec.bind_ok h1.1]
    rcases hr : k a f' with e | ⟨b, f''⟩ <;> rw [hr] at h2
    · cases e with
      | stuck => trivial
      | err e => rw [h1.2.fin] at h2; exact h2
    · exact ⟨h2.1, h1.2.trans h2.2⟩

theorem Follows.bind {s s' : Spec α} {k k' : α → Spec γ} (h : Follows s s') (hk : ∀ a, Follows (k a) (k' a)) (he : ∀ a, AtEnd (k' a)) :
    Follows (s >>= k) (s' >>= k') := by
  intro f hl
  have h1 := h f hl
  rcases hs : s f with e | ⟨a, f'⟩ <;> rw [hs] at h1
  · rw [Spec.bind_err hs]
    cases e with
    | stuck => trivial
    | err e =>
      rcases h1 with h1 | ⟨rfl, h1⟩ | ⟨rfl, b, g, h1, h2, h3⟩
      · exact .inl (Spec.bind_err h1)
      · exact .inr (.inl ⟨rfl, Spec.bind_err h1⟩)
      · rw [Spec.bind_ok h1]
        rcases he b g h2 with h4 | ⟨c, i, h4, h5, h6⟩
        · exact .inl (by rw [h4, h3])
        · exact .inr (.inr ⟨rfl, c, i, h4, h5, h6.trans h3⟩)
  · have h2 := hk a f' (Nat.lt_of_le_of_lt h1.2.len hl)
    rw [Spec.bind_ok hs, Spec.bind_ok h1.1]
    rcases hr : k a f' with e | ⟨b, f''⟩ <;> rw [hr] at h2
    · cases e with
      | stuck => trivial
      | err e => rw [h1.2.fin] at h2; exact h2
    · exact ⟨h2.1, h1.2.trans h2.2⟩

theorem Follows.config {k k' : ParseConfig → Spec γ} (hk : ∀ c, Follows (k c) (k' c.plain)) : Follows (Spec.config >>= k) (Spec.config >>= k') :=
  fun f => hk f.cfg f
theorem Follows.pure (a : α) : Follows (Pure.pure a : Spec α) (Pure.pure a) := (Exact.pure a).follows
theorem Follows.ite {c : Prop} [Decidable c] {s t s' t' : Spec α} (h : Follows s s') (h' : Follows t t') :
    Follows (if c then s else t) (if c then s' else t') := by
  split
  · exact h
  · exact h'
/-- The last step. -/
theorem Follows.map {s s' : Spec α} (h : Follows s s') (k : α → γ) : Follows (s >>= fun a => Pure.pure (k a)) (s' >>= fun a => Pure.pure (k a)) :=
  .bind h (fun _ => .pure _) fun _ => .pure _
theorem Follows.parseIf {s s' : Spec α} (c : Bool) (h : Follows s s') : Follows (Perf.parseIf c s) (Perf.parseIf c s') := by
  cases c with
  | true => exact h.map _
  | false => exact .pure _

theorem Follows.namespaces : Follows (parseNamespaces : Spec (Namespaces List)) parseNamespaces :=
  .bindExact .u32 fun _ => .bindExact .u32 fun _ => .bindExact .u64 fun _ =>
    .map (.slice ItemOk.namespaceEntry (.bind .u64 fun _ => .bind .u64 fun _ => .pure _) _) _

theorem Follows.readGroup : Follows (parseReadGroup : Spec (ReadGroup List)) parseReadGroup := by
  unfold parseReadGroup
  refine .config fun c => ?_
  refine .ite (Exact.fail _).follows (.ite (Exact.fail _).follows ?_)
  exact .bindExact .u64 fun _ => .bindExact (.parseIf _ .u64) fun _ => .bindExact (.parseIf _ .u64) fun _ =>
    .ite (Exact.fail _).follows (.map (.slice ItemOk.u64 .u64 _) _)

theorem Follows.registers (mask : U64) : Follows (parseRegisters mask : Spec (Registers List)) (parseRegisters mask) :=
  .bindExact .u64 fun _ => .map (.slice ItemOk.u64 .u64 _) _

theorem Follows.callchain : Follows (parseCallchain : Spec (List U64)) parseCallchain :=
  .bindExact .u64 fun _ => .slice ItemOk.u64 .u64 _

theorem Follows.lbr (b : Bool) : Follows (parseLbr b : Spec (List BranchEntry × Option U64)) (parseLbr b) :=
  .bindExact .u64 fun _ => .bindExact (.parseIf _ .u64) fun _ =>
    .map (.slice ItemOk.branchEntry (.bind .u64 fun _ => .bind .u64 fun _ => .bind .u64 fun _ => .pure _) _) _

theorem Follows.values : Follows (parseValues : Spec (ReadGroup List)) parseValues :=
  .config fun _ => .ite .readGroup (.bindExact .readValue fun _ => .pure _)

/-- The rest of a sample. -/
def Tail (s s' : Spec α) : Prop := Follows s s' ∧ AtEnd s'

/-- A part of a SAMPLE that may be a list, when everything after it is either absent or needs data. -/
theorem Follows.part {s s' : Spec α} {k k' : Option α → Spec γ} (c : Bool) (h : Follows s s') (hk : ∀ a, Tail (k a) (k' a)) :
    Follows (Perf.parseIf c s >>= k) (Perf.parseIf c s' >>= k') := .bind (.parseIf c h) (fun a => (hk a).1) fun a => (hk a).2

theorem Tail.part {s s' : Spec α} {k k' : Option α → Spec γ} (c : Bool) (h : Follows s s') (hd : Dies s') (hk : ∀ a, Tail (k a) (k' a)) :
    Tail (Perf.parseIf c s >>= k) (Perf.parseIf c s' >>= k') := ⟨.part c h hk, .bind (.parseIf c hd.atEnd) fun a => (hk a).2⟩

theorem Tail.u64 {k k' : Option U64 → Spec γ} (c : Bool) (hk : ∀ a, Tail (k a) (k' a)) :
    Tail (Perf.parseIf c parseU64 >>= k) (Perf.parseIf c parseU64 >>= k') := .part c Exact.u64.follows .u64 hk

theorem Follows.sample : Follows (parseSample : Spec (Sample List)) parseSample := by
  unfold parseSample
  refine .config fun c => ?_
  iterate 2 refine .bindExact (.parseIf _ .u64) fun _ => ?_
  iterate 2 refine .bindExact (.parseIf _ .u32) fun _ => ?_
  iterate 4 refine .bindExact (.parseIf _ .u64) fun _ => ?_
  refine .bindExact (.parseIf _ .cpu) fun _ => .bindExact (.parseIf _ .u64) fun _ => ?_
  refine .part _ .values fun _ => ?_
  refine .part _ .callchain (.bind .u64) fun _ => ?_
  refine .part _ (Exact.padded 8 (.bind .u32 fun _ => .bytes _)).follows (Dies.padded 8 (by decide) (.bind (.bind (.bytes 4)))) fun _ => ?_
  refine .part _ (.lbr _) (.bind .u64) fun _ => ?_
  refine .part _ (.config fun _ => .registers _) (fun g hg => Dies.bind (Dies.u64) g hg) fun _ => ?_
  refine .part _ Exact.stackUser.follows (.bind .u64) fun _ => ?_
  iterate 3 refine .u64 _ fun _ => ?_
  refine .part _ (.config fun _ => .registers _) (fun g hg => Dies.bind (Dies.u64) g hg) fun _ => ?_
  iterate 4 refine .u64 _ fun _ => ?_
  exact .part _ (Exact.bind .u64 fun _ => .bytes _).follows (.bind .u64) fun _ => ⟨.pure _, .pure _⟩

/-- The body of a record with lists. -/
theorem Follows.body {ty : U32} (h : ty.toNat = 9 ∨ ty.toNat = 16) : Follows (parseBody ty : Spec (Record List)) (parseBody ty) := by
  unfold parseBody
  rcases h with h | h <;> rw [h]
  · exact Follows.sample.map _
  · exact Follows.namespaces.map _

end Perf
