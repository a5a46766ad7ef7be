import Verif.Proof.User
import Verif.Proof.Memory
/-!
# How much memory a program over the parser can make it request at a time

`Modest I B m`: started in a state satisfying `I`, `m` ends in one, also when it fails, and each of its requests is for
at most `B` bytes.
-/
namespace Perf
variable {β : Type} {α α' T : Type}

/-- Every request of `m` is for at most `B` bytes. -/
def Modest (I : Parser β → Prop) (B : Nat) (m : P β α) : Prop :=
  ∀ p, I p → I (m p).st ∧ ∀ x ∈ (m p).log, x ≤ B

/-- A buffer that never shows more than `B` bytes at once, as long as `I` holds. -/
structure Shows [ParseBuf β] (B : Nat) (I : Parser β → Prop) : Prop extends Stable I where
  chunkLen : ∀ p c, I p → (P.chunk p).res = .ok c → c.data.length ≤ B

/-- In addition it announces at most `B` bytes; without an announcement the parser assumes 16 KiB. -/
structure Fits [ParseBuf β] (B : Nat) (I : Parser β → Prop) : Prop extends Shows B I where
  hint : ∀ p, I p → (ParseBuf.hint p.data).getD 16384 ≤ B

namespace Modest
variable {I : Parser β → Prop} {B : Nat}

theorem mono {B' : Nat} {m : P β α} (h : Modest I B m) (hb : B ≤ B') : Modest I B' m :=
  fun p hp => ⟨(h p hp).1, fun x hx => Nat.le_trans ((h p hp).2 x hx) hb⟩

theorem bind {m : P β α} {c : α → P β α'} (h : Modest I B m) (hc : ∀ a, Modest I B (c a)) : Modest I B (m >>= c) := by
  intro p hp
  obtain ⟨h1, h2⟩ := h p hp
  rcases hm : (m p).res with e | a
  · rw [P.bind_err (P.run_eq _ hm)]
    exact ⟨h1, h2⟩
  · rw [P.bind_ok (P.run_eq _ hm)]
    obtain ⟨g1, g2⟩ := hc a _ h1
    refine ⟨g1, fun x hx => ?_⟩
    rcases List.mem_append.mp hx with hx | hx
    · exact h2 x hx
    · exact g2 x hx

theorem pure (a : α) : Modest I B (Pure.pure a : P β α) := fun _ hp => ⟨hp, nofun⟩
theorem fault (e : Fault) : Modest I B (P.fault e : P β α) := fun _ hp => ⟨hp, nofun⟩
theorem fail (e : ParseError) : Modest I B (P.fail e : P β α) := fun _ hp => ⟨hp, nofun⟩
theorem ite {c : Prop} [Decidable c] {a b : P β α} (h1 : c → Modest I B a) (h2 : ¬ c → Modest I B b) :
    Modest I B (if c then a else b) := by
  by_cases h : c
  · rw [if_pos h]; exact h1 h
  · rw [if_neg h]; exact h2 h
theorem config : Modest I B (P.config : P β ParseConfig) := fun _ hp => ⟨hp, nofun⟩
theorem offset : Modest I B (P.offset : P β Nat) := fun _ hp => ⟨hp, nofun⟩
theorem ofExcept (x : Except Fault α) : Modest I B (P.ofExcept x : P β α) := fun _ hp => ⟨hp, nofun⟩

/-- What requests nothing. -/
theorem _root_.Perf.Eats.modest {n : Nat} {m : P β α} (h : Eats I n m) : Modest I B m := fun p hp =>
  ⟨(h p hp).1, by rw [(h p hp).2.1]; exact nofun⟩

theorem alloc {n : Nat} (h : n ≤ B) : Modest I B (P.alloc n : P β Unit) := fun p hp =>
  ⟨hp, fun x hx => by
    have hx : x ∈ [n] := hx
    rw [List.mem_singleton.mp hx]; exact h⟩

theorem repeatedLoop {item : P β T} (h : Modest I B item) : ∀ n, Modest I B (P.repeatedLoop item n)
  | 0 => pure _
  | n + 1 => bind h fun _ => bind (repeatedLoop h n) fun _ => pure _

/-- The outcome as a value. -/
theorem attempt {m : P β α} (h : Modest I B m) : Modest I B (P.attempt m) := by
  intro p hp
  have h := h p hp
  unfold P.attempt
  split <;> exact h

/-- On another parser. -/
theorem attemptOn {δ : Type} {J : Parser δ → Prop} {m : P δ α} (h : Modest J B m) {c : Parser δ} (hc : J c) :
    Modest I B (P.attemptOn c m : P β (Except ParseError α)) := by
  intro p hp
  have h := (h c hc).2
  unfold P.attemptOn
  split <;> exact ⟨hp, h⟩

theorem onChild {δ : Type} {J : Parser δ → Prop} {m : P δ α} (h : Modest J B m) {c : Parser δ} (hc : J c) :
    Modest I B (P.onChild c m : P β (α × Parser δ)) := by
  intro p hp
  have h := (h c hc).2
  unfold P.onChild
  dsimp only
  split <;> exact ⟨hp, h⟩

variable [ParseBuf β]

section
variable (s : Shows B I)
include s

/-- `chunk` followed by anything that looks at the chunk. -/
theorem chunkBind {k : Chunk → P β α} (hk : ∀ c : Chunk, c.data.length ≤ B → Modest I B (k c)) : Modest I B (P.chunk >>= k) := by
  intro p hp
  have hI := s.chunk p hp
  rcases hm : (P.chunk p).res with e | c
  · rw [P.bind_err (P.run_eq _ hm)]
    exact ⟨hI, nofun⟩
  · rw [P.bind_nil (P.run_eq _ hm)]
    exact hk c (s.chunkLen p c hp hm) _ hI

omit s in
omit [ParseBuf β] in
theorem toCow {c : Chunk} (h : c.data.length ≤ B) : Modest I B (P.toCow c : P β (Cow Byte)) := by
  unfold P.toCow
  split
  · exact bind (alloc h) fun _ => pure _
  · exact pure _

theorem rest : Modest I B (P.rest : P β (Cow Byte)) :=
  chunkBind s fun _ hc => bind (toCow hc) fun _ => bind (Eats.advance s.toStable _).modest fun _ =>
    bind Eats.fuel.modest fun _ => (Eats.restLoop s.toStable _ _).modest

theorem cursorLoop : ∀ (fuel len : Nat) (cs : List Chunk), Modest I B (P.cursorLoop fuel len cs : P β (List Chunk))
  | 0, _, _ => fault _
  | fuel + 1, len, cs => ite (fun _ => pure _) fun _ => chunkBind s fun c hc => by
    have hl : (c.truncate len).data.length ≤ B := by
      refine Nat.le_trans ?_ hc
      unfold Chunk.truncate
      split
      · exact Nat.le_refl _
      · simp only [List.length_take]; omega
    refine bind (ite (fun _ => bind (toCow hl) fun _ => pure _) fun _ => pure _) fun _ =>
      bind (Eats.advance s.toStable _).modest fun _ => cursorLoop fuel _ _

theorem splitAt (n : Nat) : Modest I B (P.splitAt n : P β (Parser Cursor)) :=
  bind (bind Eats.fuel.modest fun _ => bind (cursorLoop s _ _ _) fun _ => pure _) fun _ => bind config fun _ => pure _

theorem array (n : Nat) : Modest I B (P.array n : P β (List Byte)) := (Eats.array s.toStable n).modest
theorem u8 : Modest I B (parseU8 : P β U8) := (Eats.u8 s.toStable).modest
theorem u16 : Modest I B (parseU16 : P β U16) := (Eats.u16 s.toStable).modest
theorem u32 : Modest I B (parseU32 : P β U32) := (Eats.u32 s.toStable).modest
theorem u64 : Modest I B (parseU64 : P β U64) := (Eats.u64 s.toStable).modest

omit [ParseBuf β] s in
theorem attrStep [ParseBuf β] {c : Bool} {f : Attr → P β Attr} (a : Attr) (h : ∀ a, Modest I B (f a)) : Modest I B (Perf.attrStep c f a) := by
  cases c with
  | true => exact h a
  | false => exact pure _

/-- Walk through the fields of an attribute. -/
macro "modest" s:term : tactic => `(tactic| repeat first
  | exact Modest.u64 $s
  | exact Modest.u32 $s
  | exact Modest.u16 $s
  | exact Modest.u8 $s
  | exact Modest.config
  | exact Modest.array $s _
  | exact Modest.fail _
  | exact Modest.pure _
  | refine Modest.ite (fun _ => ?_) fun _ => ?_
  | refine Modest.bind ?_ fun _ => ?_)

theorem attrBody (t n : U32) : Modest I B (Perf.attrBody t n : P β Attr) := by
  refine bind ?_ fun a => attrStep a fun a => bind (rest s) fun _ => ite (fun _ => pure _) fun _ => fail _
  unfold Perf.attrHead
  refine bind (attrStep _ fun a => by unfold attrVer0; modest s) fun _ => ?_
  refine bind (attrStep _ fun a => by unfold attrVer1; modest s) fun _ => ?_
  refine bind (attrStep _ fun a => by unfold attrVer2; modest s) fun _ => ?_
  refine bind (attrStep _ fun a => by unfold attrVer3; modest s) fun _ => ?_
  refine bind (attrStep _ fun a => by unfold attrVer4; modest s) fun _ => ?_
  refine bind (attrStep _ fun a => by unfold attrVer5; modest s) fun _ => ?_
  refine bind (attrStep _ fun a => by unfold attrVer6; modest s) fun _ => ?_
  refine bind (attrStep _ fun a => by unfold attrVer7; modest s) fun _ => ?_
  exact attrStep _ fun a => by unfold attrVer8; modest s
end

theorem cowSplitAt (c : Cow T) (n : Nat) : Modest I B (ParserM.cowSplitAt c n : P β (Cow T × Cow T)) := by
  show Modest I B (match c.splitAt n with | some r => Pure.pure r | none => P.fault .panic)
  split
  · exact pure _
  · exact fault _

section
variable (r : Fits B I)
include r

theorem hintBind {c : Option Nat → P β α} (hc : ∀ h, h.getD 16384 ≤ B → Modest I B (c h)) : Modest I B (P.hint >>= c) := by
  intro p hp
  have hr : P.hint p = ⟨.ok (ParseBuf.hint p.data), p, []⟩ := rfl
  rw [P.bind_nil hr]
  exact hc _ (r.hint p hp) p hp

theorem repeated (size : Nat) {item : P β T} (h : Modest I B item) (n : Nat) : Modest I B (P.repeated size item n) := by
  have hb : ∀ p, ∃ b, (P.safeCapacityBound size : P β Nat) p = ⟨.ok b, p, []⟩ ∧ (size ≠ 0 → b = (ParseBuf.hint p.data).getD 16384 / size) := by
    intro p
    unfold P.safeCapacityBound
    by_cases h0 : size = 0
    · exact ⟨usizeLimit - 1, by rw [if_pos h0]; rfl, fun h => absurd h0 h⟩
    · exact ⟨_, by rw [if_neg h0]; rfl, fun _ => rfl⟩
  intro p hp
  obtain ⟨b, h1, h2⟩ := hb p
  have hr : (P.repeated size item n : P β (List T)) p = (P.alloc (min n b * size) >>= fun _ => P.repeatedLoop item n) p := P.bind_nil h1
  rw [hr]
  refine bind (alloc ?_) (fun _ => repeatedLoop h n) p hp
  by_cases h0 : size = 0
  · rw [h0, Nat.mul_zero]; exact Nat.zero_le _
  · rw [h2 h0]
    exact Nat.le_trans (Nat.le_trans (Nat.mul_le_mul_right _ (Nat.min_le_right _ _)) (Nat.div_mul_le_self _ _)) (r.hint p hp)

theorem bytesSlow (len : Nat) : Modest I B (P.bytesSlow len : P β (List Byte)) := by
  intro p hp
  have h1 : (P.safeCapacityBound 1 : P β Nat) p = ⟨.ok ((ParseBuf.hint p.data).getD 16384 / 1), p, []⟩ := rfl
  have hr : (P.bytesSlow len : P β (List Byte)) p = _ := P.bind_nil h1
  rw [hr]
  refine bind (alloc ?_) (fun _ => bind Eats.fuel.modest fun _ => (Eats.bytesSlowLoop r.toStable _ len []).modest) p hp
  have := r.hint p hp
  rw [Nat.div_one]
  omega

theorem bytes (len : Nat) : Modest I B (P.bytes len : P β (Cow Byte)) := by
  refine bind (Eats.bytesDirect r.toStable len).modest fun x => ?_
  split
  · exact pure _
  · refine hintBind r fun h hB => ite (fun hl => ?_) fun _ => bind (bytesSlow r len) fun _ => pure _
    have hle : len ≤ B := by
      cases h with
      | none => cases hl
      | some h => exact Nat.le_trans (of_decide_eq_true hl) hB
    exact bind (alloc hle) fun _ => bind (Eats.toSlice r.toStable len).modest fun _ => pure _

theorem slice (e : Elem T) {item : P β T} (h : Modest I B item) (n : Nat) : Modest I B (P.slice e item n : P β (Cow T)) := by
  refine bind (Eats.sliceDirect r.toStable e n).modest fun x => ?_
  split
  · exact pure _
  · exact bind (repeated r e.size h n) fun _ => pure _

theorem kept : Kept (M := P β) (C := Cow) (Modest I B) where
  pure := pure
  bind := bind
  fail := fail
  config := config
  array := array r.toShows
  bytes := bytes r
  rest := rest r.toShows
  restTrimNul := bind (rest r.toShows) fun _ => pure _
  padded h := ite (fun _ => fault _) fun _ => bind offset fun _ => bind h fun _ => bind offset fun _ =>
    ite (fun _ => pure _) fun _ => bind (Eats.bytesIgnored r.toStable _).modest fun _ => pure _
  slice e n h := slice r e h n
  textPoke := by
    refine bind (u64 r.toShows) fun _ => bind (u16 r.toShows) fun _ => bind (u16 r.toShows) fun _ => bind (bytes r _) fun _ =>
      bind (cowSplitAt _ _) fun _ => pure _

theorem dispatch {O : Type} (v : Visitor Cow O) (md : Metadata) : Modest I B (P.dispatch v md : P β O) := by
  rw [P.dispatch_eq]
  exact bind ((kept r).body md.ty) fun _ => ofExcept _
end
end Modest

/-! ## Buffers of known extent -/

/-- No more than `H` bytes in all. -/
def Extent.le (H : Nat) (J : Nat → β → Prop) (p : Parser β) : Prop := ∃ r, r ≤ H ∧ J r p.data.buf

theorem Extent.fits [ParseBuf β] {H : Nat} {J : Nat → β → Prop} (e : Extent H J) : Fits H (Extent.le H J) where
  chunk p h := let ⟨r, hr, hj⟩ := h; ⟨r, hr, (e.chunk _ _ hj).1⟩
  advance p n h := by
    obtain ⟨r, hr, hj⟩ := h
    unfold P.advance
    rcases hb : ParseBuf.advance p.data.buf n with _ | b
    · have hd : ParseBuf.advance p.data n = none := by
        show (ParseBuf.advance p.data.buf n).map _ = none
        rw [hb]; rfl
      rw [hd]
      exact ⟨r, hr, hj⟩
    · have hd : ParseBuf.advance p.data n = some ⟨b, p.data.offset + n⟩ := by
        show (ParseBuf.advance p.data.buf n).map _ = _
        rw [hb]; rfl
      rw [hd]
      exact ⟨r - n, by omega, (e.advance _ _ _ _ hj hb).2⟩
  chunkLen p c h hc := let ⟨r, hr, hj⟩ := h; Nat.le_trans ((e.chunk _ _ hj).2 c hc) hr
  hint p h := by
    obtain ⟨r, hr, hj⟩ := h
    obtain ⟨h, hh, he⟩ := e.hint _ _ hj
    show (ParseBuf.hint p.data.buf).getD 16384 ≤ H
    rw [he]; exact hh

/-- A region of at most `H` bytes. -/
def Within (H : Nat) : Parser Cursor → Prop :=
  Extent.le H fun r c => chunkBytes c.chunks ≤ c.offset + r ∧ c.offset ≤ chunkBytes c.chunks ∧ c.len ≤ H

theorem Within.fits (H : Nat) : Fits H (Within H) := (Extent.cursor H).fits

theorem Within.of {H : Nat} {q : Parser Cursor} (h : chunkBytes q.data.buf.chunks ≤ H ∧ q.data.buf.offset = 0 ∧ q.data.buf.len ≤ H) :
    Within H q := ⟨H, Nat.le_refl _, by omega, by omega, h.2.2⟩

/-! ## Regions by their chunks -/

/-- Every chunk of the region has at most `B` bytes. -/
def Bits (B : Nat) (p : Parser Cursor) : Prop := ∀ c ∈ p.data.buf.chunks, c.data.length ≤ B

theorem Cursor.slowLoop_subset : ∀ (cs : List Chunk) (off : Nat), ∀ c ∈ (Cursor.slowLoop cs off).1, c ∈ cs
  | [], _, c, h => h
  | d :: cs, off, c, h => by
    unfold Cursor.slowLoop at h
    split at h
    · exact h
    · exact List.mem_cons_of_mem _ (Cursor.slowLoop_subset cs _ c h)

theorem Cursor.advance_mem {c c' : Cursor} {n : Nat} (h : c.advance n = some c') : ∀ x ∈ c'.chunks, x ∈ c.chunks := by
  have slow : ({ c with offset := c.offset + n } : Cursor).advanceSlow = some c' → ∀ x ∈ c'.chunks, x ∈ c.chunks := by
    intro hs
    have hm := Cursor.slowLoop_subset c.chunks (c.offset + n)
    unfold Cursor.advanceSlow at hs
    split at hs
    · split at hs
      · cases hs; exact nofun
      · cases hs
    · rename_i d ds off ho
      rw [ho] at hm
      cases hs
      exact hm
  unfold Cursor.advance at h
  split at h
  · cases h
  · split at h
    · cases h
    · simp only at h
      split at h
      · split at h
        · cases h; exact fun _ hx => hx
        · exact slow h
      · exact slow h

theorem Bits.shows (B : Nat) : Shows B (Bits B) where
  chunk _ h := h
  advance p n h := by
    unfold P.advance
    rcases hb : ParseBuf.advance p.data.buf n with _ | b
    · have hd : ParseBuf.advance p.data n = none := by
        show (ParseBuf.advance p.data.buf n).map _ = none
        rw [hb]; rfl
      rw [hd]
      exact h
    · have hd : ParseBuf.advance p.data n = some ⟨b, p.data.offset + n⟩ := by
        show (ParseBuf.advance p.data.buf n).map _ = _
        rw [hb]; rfl
      rw [hd]
      exact fun c hc => h c (Cursor.advance_mem hb c hc)
  chunkLen p c h hc := by
    have hc : p.data.buf.chunk = .ok c := hc
    unfold Cursor.chunk at hc
    split at hc
    · cases hc
    · rename_i d ds hd
      split at hc
      · cases hc
        have := h d (by rw [hd]; exact List.mem_cons_self ..)
        simp only [List.length_drop]
        omega
      · cases hc

theorem Inv.chunkLoop [ParseBuf β] {I : Parser β → Prop} {B : Nat} (s : Shows B I) : ∀ (fuel len : Nat) (cs : List Chunk),
    (∀ c ∈ cs, c.data.length ≤ B) → Inv I (fun x => ∀ c ∈ x, c.data.length ≤ B) (P.cursorLoop fuel len cs : P β (List Chunk))
  | 0, _, _, _ => Inv.fault _
  | fuel + 1, len, cs, h => Inv.ite (fun _ => Inv.pure h) fun _ =>
    Inv.bind (Q := fun c => c.data.length ≤ B) (fun p hp => ⟨s.chunk p hp, fun c hc => s.chunkLen p c hp hc⟩) fun c hc =>
      Inv.bind (Q := fun x => ∀ c ∈ x, c.data.length ≤ B)
        (Inv.ite (fun _ => Inv.skip ((Inv.toCow _).mono fun _ _ => trivial) fun _ => Inv.pure fun d hd => by
          rcases List.mem_cons.mp hd with hd | hd
          · rw [hd]
            refine Nat.le_trans ?_ hc
            unfold Chunk.truncate
            split
            · exact Nat.le_refl _
            · simp only [List.length_take]; omega
          · exact h d hd) fun _ => Inv.pure h) fun x hx =>
        Inv.skip (Inv.advance s.toStable _) fun _ => Inv.chunkLoop s fuel _ x hx

/-- The chunks of a region are no longer than those it was taken from. -/
theorem Inv.pieces [ParseBuf β] {I : Parser β → Prop} {B : Nat} (s : Shows B I) (n : Nat) :
    Inv I (Bits B) (P.splitAt n : P β (Parser Cursor)) :=
  Inv.bind (Q := fun c : Cursor => ∀ x ∈ c.chunks, x.data.length ≤ B)
    (Inv.skip Inv.fuel fun _ => Inv.bind (Inv.chunkLoop s _ n [] nofun) fun _ hx => Inv.pure fun c hc => hx c (List.mem_reverse.mp hc))
    fun _ hc => Inv.skip Inv.config fun _ => Inv.pure hc

/-! ## Records -/

namespace Modest
variable {I : Parser β → Prop} {B : Nat} [ParseBuf β]

omit [ParseBuf β] in
theorem _root_.Perf.le_sum_of_mem {x : Nat} : ∀ {l : List Nat}, x ∈ l → x ≤ l.sum
  | y :: l, h => by
    rw [List.sum_cons]
    rcases List.mem_cons.mp h with h | h
    · omega
    · have := le_sum_of_mem h; omega

omit [ParseBuf β] in
theorem costs {n : Nat} {Q : α → Prop} {m : P β α} (h : Costs n Q m) (hi : Inv I (fun _ => True) m) (hn : n ≤ B) : Modest I B m := by
  intro p hp
  refine ⟨(hi p hp).1, fun x hx => ?_⟩
  have h1 := (h p).1
  have h2 : x ≤ (m p).log.sum := le_sum_of_mem hx
  omega

theorem splitAtLe (s : Stable I) {n : Nat} (hn : n ≤ B) : Modest I B (P.splitAt n : P β (Parser Cursor)) :=
  costs (Costs.splitAt n) (Inv.splitAt s n) hn

omit [ParseBuf β] in
/-- A step after which more is known. -/
theorem bindQ {n : Nat} {Q : α → Prop} {m : P β α} {c : α → P β α'} (h : Modest I B m) (hq : Costs n Q m)
    (hc : ∀ a, Q a → Modest I B (c a)) : Modest I B (m >>= c) := by
  intro p hp
  obtain ⟨h1, h2⟩ := h p hp
  rcases hm : (m p).res with e | a
  · rw [P.bind_err (P.run_eq _ hm)]
    exact ⟨h1, h2⟩
  · rw [P.bind_ok (P.run_eq _ hm)]
    obtain ⟨g1, g2⟩ := hc a ((hq p).2 a hm) _ h1
    refine ⟨g1, fun x hx => ?_⟩
    rcases List.mem_append.mp hx with hx | hx
    · exact h2 x hx
    · exact g2 x hx

variable (s : Stable I)
include s

theorem metadataWithHeader (h : Header) (hB : h.size.toNat - 8 ≤ B) : Modest I B (P.metadataWithHeader h : P β (Parser Cursor × Metadata)) := by
  refine ite (fun _ => fail _) fun _ => bind (splitAtLe s hB) fun q => ite (fun _ => pure _) fun _ => ite (fun _ => fail _) fun _ => ?_
  have st : Stable (fun _ : Parser Cursor => True) := ⟨fun _ _ => trivial, fun _ _ _ => trivial⟩
  refine bind (onChild (J := fun _ => True) (splitAtLe st (by omega)) trivial) fun x => ?_
  obtain ⟨a, b⟩ := x
  exact bind (onChild (J := fun _ => True) (Eats.sampleId st).modest trivial) fun _ => pure _

theorem recordWithHeader {O : Type} (v : Visitor Cow O) (h : Header) (hB : h.size.toNat - 8 ≤ B) : Modest I B (P.recordWithHeader v h : P β O) := by
  refine bindQ (metadataWithHeader s h hB) (Costs.metadataWithHeader h) fun x hx => ?_
  obtain ⟨q, md⟩ := x
  have impl : ∀ {γ : Type} [ParseBuf γ] {J : Nat → γ → Prop}, Extent (h.size.toNat - 8) J → ∀ q : Parser γ, J (h.size.toNat - 8) q.data.buf →
      Modest I B (P.recordImpl q v md : P β O) := by
    intro γ _ J e q hq
    refine mono ?_ hB
    exact bind (onChild (dispatch (Extent.fits e.tracking) v md) ⟨_, Nat.le_refl _, hq⟩) fun _ => pure _
  simp only at hx
  rcases hd : q.data.buf.asSlice with _ | d
  · have := impl (Extent.cursor (h.size.toNat - 8)) q ⟨by omega, by omega, hx.2.2⟩
    simp only [hd]
    exact this
  · have hl : d.data.length ≤ h.size.toNat - 8 := by
      unfold Cursor.asSlice at hd
      split at hd
      · rename_i a d' hc
        cases hd
        rw [hc] at hx
        exact hx.1
      · cases hd
    have := impl (Extent.slice (h.size.toNat - 8)) (Parser.new d q.config) ⟨hl, Nat.le_refl _⟩
    simp only [hd]
    exact this

omit [ParseBuf β] s in
/-- The size of a record is a 16-bit number. -/
theorem _root_.Perf.Header.size_le (h : Header) : h.size.toNat - 8 ≤ 65527 := by have := h.size.isLt; omega

theorem record {O : Type} (v : Visitor Cow O) (hB : 65527 ≤ B) : Modest I B (P.record v : P β O) :=
  bind (Eats.header s).modest fun h => recordWithHeader s v h (Nat.le_trans h.size_le hB)

omit [ParseBuf β] s in
/-- Something that splits off a region, then anything on the region and on the parser itself. -/
theorem withRegion {n : Nat} {m : P β (Parser Cursor × Metadata)} (hm : Modest I B m) (hB : 65527 ≤ B)
    (hq : Costs n (fun x => chunkBytes x.1.data.buf.chunks ≤ 65527 ∧ x.1.data.buf.offset = 0 ∧ x.1.data.buf.len ≤ 65527) m)
    {body : P Cursor T} (hb : Modest (Within B) B body) {k : Metadata → Except ParseError T → P β α} (hk : ∀ md r, Modest I B (k md r)) :
    Modest I B (m >>= fun x => P.attemptOn x.1 body >>= fun r => k x.2 r) :=
  bindQ hm hq fun _ hx => bind (attemptOn hb (Within.of ⟨by omega, hx.2.1, by omega⟩)) fun _ => hk _ _

omit s in
theorem _root_.Perf.Costs.region (h : Header) : Costs 131054
    (fun x => chunkBytes x.1.data.buf.chunks ≤ 65527 ∧ x.1.data.buf.offset = 0 ∧ x.1.data.buf.len ≤ 65527)
    (P.metadataWithHeader h : P β (Parser Cursor × Metadata)) := by
  intro p
  have hs := h.size_le
  obtain ⟨h1, h2⟩ := Costs.metadataWithHeader h p
  refine ⟨by split at h1 <;> omega, fun x hx => ?_⟩
  have := h2 x hx
  omega

end Modest

/-! ## Programs -/

namespace Modest
variable {I : Parser β → Prop} {B : Nat} [ParseBuf β] (r : Fits B I)
include r

theorem attr : Modest I B (P.parseAttr : P β Attr) := by
  refine bind (u32 r.toShows) fun t => bind (u32 r.toShows) fun n => ite (fun _ => fail _) fun _ => ?_
  intro p hp
  obtain ⟨h1, h2⟩ := splitAt r.toShows (n.toNat - 4) p hp
  have h3 := (Inv.pieces r.toShows (n.toNat - 4) p hp).2
  rcases hm : ((P.splitAt (n.toNat - 4) : P β (Parser Cursor)) p).res with e | c
  · rw [P.bind_err (P.run_eq _ hm)]
    exact ⟨h1, h2⟩
  · rw [P.bind_ok (P.run_eq _ hm)]
    obtain ⟨g1, g2⟩ := (bind (onChild (attrBody (Bits.shows B) t n) (h3 c hm)) fun _ => pure _ :
      Modest I B (P.onChild c (Perf.attrBody t n) >>= fun r => Pure.pure r.1 : P β Attr)) _ h1
    refine ⟨g1, fun x hx => ?_⟩
    rcases List.mem_append.mp hx with hx | hx
    · exact h2 x hx
    · exact g2 x hx

theorem call (hB : 65527 ≤ B) (c : Call T) : Modest I B (c.run β) := by
  have k : Kept (M := P β) (C := Cow) (Modest I B) := kept r
  cases c with
  | array n => exact k.array n
  | direct n => exact (Eats.sliceDirect r.toStable _ n).modest
  | entries n => exact bind (k.slice _ n k.namespaceEntry) fun _ => pure _
  | branches n => exact bind (k.slice _ n k.branchEntry) fun _ => pure _
  | header => exact k.header
  | attr => exact attr r
  | entry => exact k.namespaceEntry
  | branch => exact k.branchEntry
  | mmapDetail => exact k.mmapDetail
  | sampleId => exact k.sampleId
  | readValue => exact k.readValue
  | readGroup => exact bind k.readGroup fun _ => pure _
  | body ty => exact bind (k.body ty) fun _ => pure _
  | visit => exact bind (record r.toStable _ hB) fun _ => pure _
  | visitWith h => exact bind (recordWithHeader r.toStable _ h (Nat.le_trans h.size_le hB)) fun _ => pure _

omit [ParseBuf β] r in
theorem prog {B : Nat} (hB : 65527 ≤ B) (m : Prog α) : ∀ (β : Type) [ParseBuf β] (I : Parser β → Prop), Fits B I → Modest I B (m.run β) := by
  induction m with
  | done a => exact fun β _ I r => pure a
  | fail e => exact fun β _ I r => fail e
  | config k ih => exact fun β _ I r => bind config fun c => ih c β I r
  | u8 k ih => exact fun β _ I r => bind (u8 r.toShows) fun c => ih c β I r
  | u16 k ih => exact fun β _ I r => bind (u16 r.toShows) fun c => ih c β I r
  | u32 k ih => exact fun β _ I r => bind (u32 r.toShows) fun c => ih c β I r
  | u64 k ih => exact fun β _ I r => bind (u64 r.toShows) fun c => ih c β I r
  | bytes n k ih => exact fun β _ I r => bind (bytes r n) fun c => ih c.data β I r
  | rest k ih => exact fun β _ I r => bind (rest r.toShows) fun c => ih c.data β I r
  | restTrimNul k ih => exact fun β _ I r => bind (bind (rest r.toShows) fun _ => pure _) fun c => ih c.data β I r
  | words n k ih => exact fun β _ I r => bind (slice r _ (u64 r.toShows) n) fun c => ih c.data β I r
  | repeated size item n k ihi ih => exact fun β _ I r => bind (repeated r size (ihi β I r) n) fun l => ih l β I r
  | metadata body k ihb ih =>
    exact fun β _ I r => withRegion (bind (Eats.header r.toStable).modest fun h => metadataWithHeader r.toStable h (Nat.le_trans h.size_le hB)) hB
      (Costs.bind (Eats.header ⟨fun _ _ => trivial, fun _ _ _ => trivial⟩).costs fun h _ => Costs.region h)
      (ihb Cursor _ (Within.fits B)) fun md x => ih md x β I r
  | metadataWith h body k ihb ih =>
    exact fun β _ I r => withRegion (metadataWithHeader r.toStable h (Nat.le_trans h.size_le hB)) hB
      (Costs.region h) (ihb Cursor _ (Within.fits B)) fun md x => ih md x β I r
  | call c k ih => exact fun β _ I r => bind (call r hB c) fun x => ih x β I r
  | record k ih => exact fun β _ I r => bind (record r.toStable _ hB) fun x => ih x.view β I r
  | attempt m k ihm ih => exact fun β _ I r => bind (attempt (ihm β I r)) fun x => ih x β I r

end Modest
end Perf
