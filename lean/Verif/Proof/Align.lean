import Verif.Proof.Fixed
/-!
# What the place of the bytes can change

Flat parsing looks at the position of the data (`Al`) only to decide whether it is `stuck`. Here: when it is not, and
that two runs that are not stuck agree.
-/
namespace Perf
variable {α α' T : Type}

/-! ## Two runs that are not stuck agree -/

/-- The same input, except for where its bytes live. -/
structure SameInput (f f' : Flat) : Prop where
  bytes : f.s.bytes = f'.s.bytes
  fin : f.s.fin = f'.s.fin
  off : f.off = f'.off
  cfg : f.cfg = f'.cfg

/-- A cursor over one temporary piece; it can stand for the bytes wherever they live. -/
def tempCursor (f : Flat) : Parser Cursor :=
  ⟨f.cfg, ⟨⟨if f.s.bytes = [] then [] else [⟨.temporary, f.s.bytes⟩], 0, f.s.bytes.length⟩, f.off⟩⟩

theorem tempCursor_rep {f f' : Flat} (h : SameInput f f') (hfin : f'.s.fin = .eof) (hlen : f'.s.bytes.length < usizeLimit)
    (hw : f'.cfg.Wf) : RepP (tempCursor f) f' := by
  refine ⟨?_, h.off, h.cfg, hw⟩
  show Cursor.Rep _ f'.s
  unfold tempCursor
  by_cases hb : f.s.bytes = []
  · simp only [if_pos hb]
    exact ⟨by rw [← h.bytes, hb]; rfl, hfin, fun d hd => by simp at hd, rfl, by simp [chunkBytes], by rw [h.bytes]; exact hlen,
      f'.s.al, by cases f'.s.al <;> rfl, trivial⟩
  · simp only [if_neg hb]
    refine ⟨by rw [← h.bytes]; simp [chunksData], hfin, fun d hd => ?_, List.length_pos_iff.mpr hb, by simp [chunkBytes],
      by rw [h.bytes]; exact hlen, f'.s.al, by cases f'.s.al <;> rfl, Al.allows_temporary _, trivial⟩
    rw [List.mem_singleton.mp hd]
    exact hb

/-- The value or the error of a flat run. -/
def outcome (r : Except SFault (α × Flat)) : Except SFault α :=
  match r with
  | .ok (a, _) => .ok a
  | .error e => .error e

/-- A flat parser that describes some code gives the same outcome wherever the bytes live, unless it is stuck. -/
theorem Refines.al_indep {R : α → α' → Prop} (hR : ∀ a c c', R a c → R a c' → c = c') {m : P Cursor α} {s : Spec α'}
    (h : Refines R m s) {f f' : Flat} (hs : SameInput f f') (hfin : f.s.fin = .eof) (hlen : f.s.bytes.length < usizeLimit)
    (hw : f.cfg.Wf) (h1 : s f ≠ .error .stuck) (h2 : s f' ≠ .error .stuck) : outcome (s f) = outcome (s f') := by
  have m1 := h _ _ (tempCursor_rep (f := f) ⟨rfl, rfl, rfl, rfl⟩ hfin hlen hw)
  have m2 := h _ _ (tempCursor_rep hs (hs.fin ▸ hfin) (hs.bytes ▸ hlen) (hs.cfg ▸ hw))
  rcases hf : s f with e | ⟨c, g⟩
  · rw [hf] at m1 h1
    cases e with
    | stuck => exact absurd rfl h1
    | err e =>
      rcases hf' : s f' with e' | ⟨c', g'⟩
      · rw [hf'] at m2 h2
        cases e' with
        | stuck => exact absurd rfl h2
        | err e' =>
          have : (.error (.err e) : Except Fault α) = .error (.err e') := m1.symm.trans m2
          cases this
          rfl
      · rw [hf'] at m2
        obtain ⟨a, ha, _⟩ := m2
        have : (.error (.err e) : Except Fault α) = .ok a := m1.symm.trans ha
        cases this
  · rw [hf] at m1
    obtain ⟨a, ha, hr, _⟩ := m1
    rcases hf' : s f' with e' | ⟨c', g'⟩
    · rw [hf'] at m2 h2
      cases e' with
      | stuck => exact absurd rfl h2
      | err e' =>
        have : (.ok a : Except Fault α) = .error (.err e') := ha.symm.trans m2
        cases this
    · rw [hf'] at m2
      obtain ⟨a', ha', hr', _⟩ := m2
      have : (.ok a : Except Fault α) = .ok a' := ha.symm.trans ha'
      cases this
      rw [hR a c c' hr hr']
      rfl

/-! ## When flat parsing is not stuck -/

/-- If `I` holds before, `s` is not stuck, and `J` holds after it. -/
def Tri (I : Flat → Prop) (s : Spec α) (J : Flat → Prop) : Prop :=
  ∀ f, I f → s f ≠ .error .stuck ∧ ∀ a f', s f = .ok (a, f') → J f'

namespace Tri
variable {I J K : Flat → Prop}

theorem pure (a : α) : Tri I (Pure.pure a : Spec α) I := fun f h => ⟨nofun, fun b f' hb => by
  have : (.ok (a, f) : Except SFault (α × Flat)) = .ok (b, f') := hb
  cases this; exact h⟩

theorem bind {s : Spec α} {k : α → Spec α'} (h : Tri I s J) (hk : ∀ a, Tri J (k a) K) : Tri I (s >>= k) K := by
  intro f hf
  obtain ⟨h1, h2⟩ := h f hf
  rcases hs : s f with e | ⟨a, f'⟩
  · rw [Spec.bind_err hs]
    rw [hs] at h1
    exact ⟨fun he => h1 (by cases he; rfl), nofun⟩
  · rw [Spec.bind_ok hs]
    exact hk a f' (h2 a f' hs)

theorem mono {I' J' : Flat → Prop} {s : Spec α} (h : Tri I s J) (hI : ∀ f, I' f → I f) (hJ : ∀ f, J f → J' f) : Tri I' s J' :=
  fun f hf => ⟨(h f (hI f hf)).1, fun a f' ha => hJ f' ((h f (hI f hf)).2 a f' ha)⟩

theorem config : Tri I Spec.config I := fun f h => ⟨nofun, fun b f' hb => by
  have : (.ok (f.cfg, f) : Except SFault (ParseConfig × Flat)) = .ok (b, f') := hb
  cases this; exact h⟩

theorem fail (e : ParseError) : Tri I (Spec.fail e : Spec α) J := fun _ _ => ⟨nofun, nofun⟩

theorem ite {c : Prop} [Decidable c] {s s' : Spec α} (h : c → Tri I s J) (h' : ¬ c → Tri I s' J) : Tri I (if c then s else s') J := by
  by_cases hc : c
  · rw [if_pos hc]; exact h hc
  · rw [if_neg hc]; exact h' hc

theorem parseIf {s : Spec α} (c : Bool) (h : c = true → Tri I s I) : Tri I (parseIf c s) I := by
  cases c with
  | true => exact bind (h rfl) fun _ => pure _
  | false => exact pure _

theorem ofNoStuck {s : Spec α} (h : NoStuck s) : Tri I s fun _ => True := fun f _ => ⟨h f, fun _ _ _ => trivial⟩

theorem toNoStuck {s : Spec α} (h : Tri (fun _ => True) s J) : NoStuck s := fun f => (h f trivial).1

/-- The next bytes are read, whatever they are. -/
theorem bytes (n : Nat) (h : ∀ f, I f → J (f.adv n)) : Tri I (Spec.bytes n) J := by
  intro f hf
  refine ⟨NoStuck.bytes n f, fun a f' ha => ?_⟩
  unfold Spec.bytes Spec.take at ha
  split at ha
  · cases ha
  · split at ha
    · cases ha; exact h f hf
    · cases ha

end Tri

/-- A property of positions modulo 8 under which `parse_slice` of 8-byte-aligned items cannot be misaligned. -/
structure AlFamily (G : Nat → Flat → Prop) : Prop where
  adv : ∀ k f m, G k f → G ((k + m) % 8) (f.adv m)
  slice : ∀ f, G 0 f → f.cfg.endian.isNative = true → f.s.al.aligned = true

/-- The data is at an address congruent to `k` modulo 8, or not borrowed. -/
def AlAt (k : Nat) (f : Flat) : Prop :=
  match f.s.al with
  | .unknown => False
  | .temp => True
  | .at n => n % 8 = k

theorem AlAt.family : AlFamily AlAt where
  adv k f m h := by
    unfold AlAt at *
    show match f.s.al.add m with | .unknown => False | .temp => True | .at n => n % 8 = (k + m) % 8
    rcases hal : f.s.al with - | - | n <;> rw [hal] at h
    · exact h
    · trivial
    · show (n + m) % 8 = (k + m) % 8
      have h : n % 8 = k := h
      omega
  slice f h _ := by
    unfold AlAt at h
    rcases hal : f.s.al with - | - | n <;> rw [hal] at h
    · exact h.elim
    · rfl
    · show (n % 8 == 0) = true
      have h : n % 8 = 0 := h
      simp [h]

/-- The source has a byte order other than the host's, so nothing is reinterpreted in place. -/
def Foreign (f : Flat) : Prop := f.cfg.endian.isNative = false

theorem Foreign.family : AlFamily fun _ => Foreign where
  adv _ _ _ h := h
  slice f h hn := by unfold Foreign at h; rw [h] at hn; cases hn

namespace AlFamily
variable {G : Nat → Flat → Prop} (F : AlFamily G)
include F

theorem u64 : Tri (G 0) (parseU64 : Spec U64) (G 0) :=
  Tri.bind (Tri.bytes 8 fun f h => by have := F.adv 0 f 8 h; simpa using this) fun _ => Tri.bind Tri.config fun _ => Tri.pure _
theorem u32 (k : Nat) : Tri (G k) (parseU32 : Spec U32) (G ((k + 4) % 8)) :=
  Tri.bind (Tri.bytes 4 fun f h => F.adv k f 4 h) fun _ => Tri.bind Tri.config fun _ => Tri.pure _

/-- Two `u32`s in a row. -/
theorem pair {s : U32 → U32 → Spec α} {J : Flat → Prop} (h : ∀ a b, Tri (G 0) (s a b) J) :
    Tri (G 0) (parseU32 >>= fun a => parseU32 >>= fun b => s a b) J :=
  Tri.bind (F.u32 0) fun a => Tri.bind (F.u32 4) fun b => h a b

omit F in
theorem repeated {item : Spec T} (h : Tri (G 0) item (G 0)) : ∀ n, Tri (G 0) (Spec.repeated item n) (G 0)
  | 0 => Tri.pure _
  | n + 1 => Tri.bind h fun _ => Tri.bind (repeated h n) fun _ => Tri.pure _

theorem sliceT (e : Elem T) {item : Spec T} (h : Tri (G 0) item (G 0)) (n : Nat) : Tri (G 0) (Spec.slice e item n) (G 0) := by
  intro f hf
  have hr := repeated h n f hf
  unfold Spec.slice
  split
  · rename_i hn
    split
    · exact ⟨nofun, nofun⟩
    · split
      · exact ⟨nofun, nofun⟩
      · rw [if_neg]
        · exact hr
        · rintro ⟨_, _, h3⟩
          rw [F.slice f hf hn] at h3
          cases h3
  · exact hr

theorem rawInner : Tri (G 0) (ParserM.padded 8 parseRawInner : Spec (List Byte)) (G 0) := by
  intro f hf
  have hm : ∀ x f', (parseRawInner : Spec (List Byte)) f = .ok (x, f') → ∃ j, f' = f.adv j := by
    intro x f' h
    have h1 : Tri (fun g => g = f) (parseU32 : Spec U32) (fun g => g = f.adv 4) :=
      Tri.bind (Tri.bytes 4 fun g hg => by rw [hg]) fun _ => Tri.bind Tri.config fun _ => Tri.pure _
    have h2 : ∀ size : U32, Tri (fun g => g = f.adv 4) (Spec.bytes size.toNat) (fun g => ∃ j, g = f.adv j) := fun size =>
      Tri.bytes _ fun g hg => ⟨4 + size.toNat, by rw [hg, Flat.adv_adv]⟩
    exact (Tri.bind h1 h2 f rfl).2 x f' h
  have hs : (parseRawInner : Spec (List Byte)) f ≠ .error .stuck :=
    NoStuck.bind NoStuck.u32 (fun _ => NoStuck.bytes _) f
  show Spec.padded 8 parseRawInner f ≠ _ ∧ ∀ a f', Spec.padded 8 parseRawInner f = .ok (a, f') → G 0 f'
  unfold Spec.padded
  rw [if_neg (by omega)]
  rcases hr : (parseRawInner : Spec (List Byte)) f with e | ⟨x, f'⟩
  · rw [hr] at hs
    exact ⟨hs, nofun⟩
  · obtain ⟨j, rfl⟩ := hm x f' hr
    have hoff : (f.adv j).off - f.off = j := by show f.off + j - f.off = j; omega
    simp only [hoff]
    split
    · rename_i h0
      refine ⟨nofun, fun a f' h => ?_⟩
      cases h
      have := F.adv 0 f j hf
      rwa [Nat.zero_add, h0] at this
    · rename_i h0
      unfold Spec.take
      split
      · rename_i e heq
        split at heq
        · cases heq
        · cases heq; exact ⟨nofun, nofun⟩
      · rename_i a g heq
        split at heq
        · cases heq
          refine ⟨nofun, fun a f' h => ?_⟩
          cases h
          have := F.adv 0 f (j + (8 - j % 8)) hf
          rw [Flat.adv_adv]
          rwa [show (0 + (j + (8 - j % 8))) % 8 = 0 by omega] at this
        · cases heq

theorem cpu : Tri (G 0) (parseCpu : Spec U32) (G 0) := F.pair fun _ _ => Tri.pure _
theorem branchEntry : Tri (G 0) (parseBranchEntry : Spec BranchEntry) (G 0) :=
  Tri.bind F.u64 fun _ => Tri.bind F.u64 fun _ => Tri.bind F.u64 fun _ => Tri.pure _
theorem namespaceEntry : Tri (G 0) (parseNamespaceEntry : Spec NamespaceEntry) (G 0) :=
  Tri.bind F.u64 fun _ => Tri.bind F.u64 fun _ => Tri.pure _
theorem registers (mask : U64) : Tri (G 0) (parseRegisters mask : Spec (Registers List)) (G 0) :=
  Tri.bind F.u64 fun _ => Tri.bind (F.sliceT _ F.u64 _) fun _ => Tri.pure _
theorem lbr (hw : Bool) : Tri (G 0) (parseLbr hw : Spec (List BranchEntry × Option U64)) (G 0) :=
  Tri.bind F.u64 fun _ => Tri.bind (Tri.parseIf _ fun _ => F.u64) fun _ => Tri.bind (F.sliceT _ F.branchEntry _) fun _ => Tri.pure _
theorem callchain : Tri (G 0) (parseCallchain : Spec (List U64)) (G 0) := Tri.bind F.u64 fun _ => F.sliceT _ F.u64 _
theorem readValue : Tri (G 0) (parseReadValue : Spec ReadValue) (G 0) := by
  refine Tri.bind Tri.config fun _ => Tri.ite (fun _ => Tri.fail _) fun _ => Tri.ite (fun _ => Tri.fail _) fun _ => ?_
  exact Tri.bind F.u64 fun _ => Tri.bind (Tri.parseIf _ fun _ => F.u64) fun _ => Tri.bind (Tri.parseIf _ fun _ => F.u64) fun _ =>
    Tri.bind (Tri.parseIf _ fun _ => F.u64) fun _ => Tri.bind (Tri.parseIf _ fun _ => F.u64) fun _ => Tri.pure _
theorem readGroup : Tri (G 0) (parseReadGroup : Spec (ReadGroup List)) (G 0) := by
  refine Tri.bind Tri.config fun _ => Tri.ite (fun _ => Tri.fail _) fun _ => Tri.ite (fun _ => Tri.fail _) fun _ => ?_
  exact Tri.bind F.u64 fun _ => Tri.bind (Tri.parseIf _ fun _ => F.u64) fun _ => Tri.bind (Tri.parseIf _ fun _ => F.u64) fun _ =>
    Tri.ite (fun _ => Tri.fail _) fun _ => Tri.bind (F.sliceT _ F.u64 _) fun _ => Tri.pure _
theorem values : Tri (G 0) (parseValues : Spec (ReadGroup List)) (G 0) :=
  Tri.bind Tri.config fun _ => Tri.ite (fun _ => F.readGroup) fun _ => Tri.bind F.readValue fun _ => Tri.pure _
theorem namespaces : Tri (G 0) (parseNamespaces : Spec (Namespaces List)) (G 0) :=
  F.pair fun _ _ => Tri.bind F.u64 fun _ => Tri.bind (F.sliceT _ F.namespaceEntry _) fun _ => Tri.pure _

omit F in
theorem stackUser_noStuck : NoStuck (parseStackUser : Spec (List Byte)) :=
  NoStuck.bind NoStuck.u64 fun _ => NoStuck.bind (NoStuck.bytes _) fun _ => NoStuck.bind
    (NoStuck.ite (NoStuck.pure _) NoStuck.u64) fun _ => NoStuck.ite (NoStuck.fail _) (NoStuck.pure _)

theorem stackUser : Tri (G 0) (parseStackUser : Spec (List Byte)) fun f => ∃ k, G k f := by
  refine Tri.bind F.u64 fun size => Tri.bind (J := fun f => ∃ k, G k f) (Tri.bytes _ fun f h => ⟨_, F.adv 0 f _ h⟩) fun data => ?_
  refine Tri.bind (J := fun f => ∃ k, G k f) (Tri.ite (fun _ => Tri.pure _) fun _ => ?_) fun _ =>
    Tri.ite (fun _ => Tri.fail _) fun _ => Tri.pure _
  exact Tri.bind (Tri.bytes 8 fun f ⟨k, h⟩ => ⟨_, F.adv k f 8 h⟩) fun _ => Tri.bind Tri.config fun _ => Tri.pure _

omit F in
theorem u64_triv : Tri (fun _ => True) (parseU64 : Spec U64) fun _ => True := Tri.ofNoStuck NoStuck.u64

/-- A SAMPLE starting at a multiple of 8 is not stuck, unless both a user stack (whose size the record says) and the
registers after it are there. -/
theorem sample {f : Flat} (hf : G 0 f)
    (hst : contains f.cfg.sampleType SampleFlags.STACK_USER = true → contains f.cfg.sampleType SampleFlags.REGS_INTR = true →
      ∀ k g, G k g → G 0 g) : (parseSample : Spec (Sample List)) f ≠ .error .stuck := by
  unfold parseSample
  have hc : (ParserM.config : Spec ParseConfig) f = .ok (f.cfg, f) := rfl
  rw [Spec.bind_ok hc]
  revert hst
  generalize f.cfg.sampleType = sty
  generalize f.cfg.branchHwIndex = bhi
  intro hst
  clear hc
  revert f
  suffices h : Tri (G 0) _ (fun _ => True) from fun {f} hf => (h f hf).1
  refine Tri.bind (Tri.parseIf _ fun _ => F.u64) fun _ => Tri.bind (Tri.parseIf _ fun _ => F.u64) fun _ => ?_
  have tid : ∀ {s : Option U32 → Option U32 → Spec (Sample List)}, (∀ a b, Tri (G 0) (s a b) fun _ => True) →
      Tri (G 0) (Perf.parseIf (contains sty SampleFlags.TID) parseU32 >>= fun a =>
        Perf.parseIf (contains sty SampleFlags.TID) parseU32 >>= fun b => s a b) fun _ => True := by
    intro s h
    cases contains sty SampleFlags.TID with
    | true =>
      refine Tri.bind (J := G 4) (Tri.bind (F.u32 0) fun _ => Tri.pure _) fun _ => ?_
      exact Tri.bind (J := G 0) (Tri.bind (F.u32 4) fun _ => Tri.pure _) fun _ => h _ _
    | false => exact Tri.bind (Tri.pure _) fun _ => Tri.bind (Tri.pure _) fun _ => h _ _
  refine tid fun _ _ => ?_
  refine Tri.bind (Tri.parseIf _ fun _ => F.u64) fun _ => Tri.bind (Tri.parseIf _ fun _ => F.u64) fun _ => ?_
  refine Tri.bind (Tri.parseIf _ fun _ => F.u64) fun _ => Tri.bind (Tri.parseIf _ fun _ => F.u64) fun _ => ?_
  refine Tri.bind (Tri.parseIf _ fun _ => F.cpu) fun _ => Tri.bind (Tri.parseIf _ fun _ => F.u64) fun _ => ?_
  refine Tri.bind (Tri.parseIf _ fun _ => F.values) fun _ => Tri.bind (Tri.parseIf _ fun _ => F.callchain) fun _ => ?_
  refine Tri.bind (Tri.parseIf _ fun _ => F.rawInner) fun _ => Tri.bind (Tri.parseIf _ fun _ => F.lbr _) fun _ => ?_
  refine Tri.bind (Tri.parseIf _ fun _ => Tri.bind Tri.config fun _ => F.registers _) fun _ => ?_
  -- the user stack
  refine Tri.bind (J := fun g => contains sty SampleFlags.REGS_INTR = true → G 0 g) ?_ fun _ => ?_
  · cases hs : contains sty SampleFlags.STACK_USER with
    | true =>
      refine Tri.bind (Tri.mono F.stackUser (fun _ h => h) fun g ⟨k, hg⟩ => ?_) fun _ => Tri.pure _
      exact fun hi => hst hs hi k g hg
    | false => exact Tri.mono (Tri.pure _) (fun _ h => h) fun g hg _ => hg
  have w : Tri (fun g => contains sty SampleFlags.REGS_INTR = true → G 0 g) (parseU64 : Spec U64)
      (fun g => contains sty SampleFlags.REGS_INTR = true → G 0 g) := by
    intro g hg
    refine ⟨NoStuck.u64 g, fun a g' ha hi => ?_⟩
    exact (F.u64 g (hg hi)).2 a g' ha
  refine Tri.bind (Tri.parseIf _ fun _ => w) fun _ => Tri.bind (Tri.parseIf _ fun _ => w) fun _ => ?_
  refine Tri.bind (Tri.parseIf _ fun _ => w) fun _ => ?_
  refine Tri.bind (J := fun _ => True) ?_ fun _ => ?_
  · cases hi : contains sty SampleFlags.REGS_INTR with
    | true => exact Tri.mono (Tri.bind (Tri.bind Tri.config fun _ => F.registers _) fun _ => Tri.pure _) (fun g hg => hg rfl) fun _ _ => trivial
    | false => exact Tri.mono (Tri.pure _) (fun _ _ => trivial) fun _ _ => trivial
  refine Tri.bind (Tri.parseIf _ fun _ => u64_triv) fun _ => Tri.bind (Tri.parseIf _ fun _ => u64_triv) fun _ => ?_
  refine Tri.bind (Tri.parseIf _ fun _ => u64_triv) fun _ => Tri.bind (Tri.parseIf _ fun _ => u64_triv) fun _ => ?_
  refine Tri.bind (J := fun _ => True) (Tri.parseIf _ fun _ => ?_) fun _ => Tri.pure _
  exact Tri.ofNoStuck (NoStuck.bind NoStuck.u64 fun _ => NoStuck.bytes _)

end AlFamily

/-! ## The other records -/

theorem NoStuck.array (n : Nat) : NoStuck (ParserM.array n : Spec (List Byte)) := NoStuck.bytes n
theorem NoStuck.readValue : NoStuck (parseReadValue : Spec ReadValue) := by
  refine NoStuck.bind NoStuck.config fun _ => NoStuck.ite (NoStuck.fail _) (NoStuck.ite (NoStuck.fail _) ?_)
  exact NoStuck.bind NoStuck.u64 fun _ => NoStuck.bind (NoStuck.parseIf _ NoStuck.u64) fun _ =>
    NoStuck.bind (NoStuck.parseIf _ NoStuck.u64) fun _ => NoStuck.bind (NoStuck.parseIf _ NoStuck.u64) fun _ =>
    NoStuck.bind (NoStuck.parseIf _ NoStuck.u64) fun _ => NoStuck.pure _

/-- All record types but SAMPLE, NAMESPACES and TEXT_POKE are a function of the bytes alone. -/
theorem NoStuck.body {ty : U32} (h9 : ty.toNat ≠ 9) (h16 : ty.toNat ≠ 16) (h20 : ty.toNat ≠ 20) :
    NoStuck (parseBody ty : Spec (Record List)) := by
  unfold parseBody
  split
  all_goals first
    | contradiction
    | skip
  all_goals refine NoStuck.bind ?_ fun _ => NoStuck.pure _
  all_goals repeat first
    | exact NoStuck.u64
    | exact NoStuck.u32
    | exact NoStuck.u16
    | exact NoStuck.u8
    | exact NoStuck.readValue
    | exact NoStuck.restTrimNul
    | exact NoStuck.rest
    | exact NoStuck.config
    | exact NoStuck.array _
    | exact NoStuck.fail _
    | exact NoStuck.pure _
    | refine NoStuck.ite ?_ ?_
    | refine NoStuck.bind ?_ fun _ => ?_

end Perf
