import Verif.Proof.Inv
/-!
# How much memory a call requests in total

Memory requested ahead of the data is a debt, and consuming bytes of the input pays it back. `Owes I B d m`: started with a
debt of `d` bytes, `m` either returns with the debt and all its own requests paid by what it consumed, or fails with at
most `B` bytes unpaid.
-/
namespace Perf
variable {β : Type} {α α' T : Type}

/-- What may be left unpaid. -/
def slack (B : Nat) : Except Fault α → Nat
  | .ok _ => 0
  | .error _ => B

/-- `m` requests no memory, and consumes at least `n` bytes if it returns. -/
def Eats (I : Parser β → Prop) (n : Nat) (m : P β α) : Prop :=
  ∀ p, I p → I (m p).st ∧ (m p).log = [] ∧ p.data.offset ≤ (m p).st.data.offset ∧
    ∀ a, (m p).res = .ok a → p.data.offset + n ≤ (m p).st.data.offset

/-- `m` pays back `d` bytes and everything it requests, up to `B` if it fails. -/
def Owes (I : Parser β → Prop) (B d : Nat) (m : P β α) : Prop :=
  ∀ p, I p → I (m p).st ∧ p.data.offset ≤ (m p).st.data.offset ∧
    p.data.offset + d + (m p).log.sum ≤ (m p).st.data.offset + slack B (m p).res

namespace Eats
variable {I : Parser β → Prop} {n k : Nat}

theorem mono {m : P β α} (h : Eats I n m) (hk : k ≤ n) : Eats I k m := fun p hp =>
  let ⟨h1, h2, h3, h4⟩ := h p hp
  ⟨h1, h2, h3, fun a ha => by have := h4 a ha; omega⟩

theorem pure (a : α) : Eats I 0 (Pure.pure a : P β α) := fun _ hp => ⟨hp, rfl, Nat.le_refl _, fun _ _ => Nat.le_refl _⟩
theorem fault (e : Fault) : Eats I n (P.fault e : P β α) := fun _ hp => ⟨hp, rfl, Nat.le_refl _, nofun⟩
theorem fail (e : ParseError) : Eats I n (P.fail e : P β α) := fun _ hp => ⟨hp, rfl, Nat.le_refl _, nofun⟩
theorem ite {c : Prop} [Decidable c] {a b : P β α} (h1 : c → Eats I n a) (h2 : ¬ c → Eats I n b) :
    Eats I n (if c then a else b) := by
  by_cases h : c
  · rw [if_pos h]; exact h1 h
  · rw [if_neg h]; exact h2 h
theorem config : Eats I 0 (P.config : P β ParseConfig) := fun _ hp => ⟨hp, rfl, Nat.le_refl _, fun _ _ => Nat.le_refl _⟩
theorem offset : Eats I 0 (P.offset : P β Nat) := fun _ hp => ⟨hp, rfl, Nat.le_refl _, fun _ _ => Nat.le_refl _⟩

theorem bind {m : P β α} {c : α → P β α'} (h : Eats I n m) (hc : ∀ a, Eats I k (c a)) : Eats I (n + k) (m >>= c) := by
  intro p hp
  obtain ⟨h1, h2, h3, h4⟩ := h p hp
  rcases hm : (m p).res with e | a
  · rw [P.bind_err (P.run_eq _ hm)]
    exact ⟨h1, h2, h3, nofun⟩
  · rw [P.bind_ok (P.run_eq _ hm)]
    obtain ⟨g1, g2, g3, g4⟩ := hc a _ h1
    have h5 := h4 a hm
    refine ⟨g1, by simp only [h2, g2, List.append_nil], by simp only; omega, fun b hb => ?_⟩
    have g5 := g4 b hb
    simp only
    omega

theorem skip {m : P β α} {c : α → P β α'} (h : Eats I n m) (hc : ∀ a, Eats I k (c a)) : Eats I k (m >>= c) :=
  mono (bind h hc) (Nat.le_add_left _ _)

variable [ParseBuf β]

theorem fuel : Eats I 0 (P.fuel : P β Nat) := fun _ hp => ⟨hp, rfl, Nat.le_refl _, fun _ _ => Nat.le_refl _⟩
theorem chunk (s : Stable I) : Eats I 0 (P.chunk : P β Chunk) :=
  fun p hp => ⟨s.chunk p hp, rfl, Nat.le_refl _, fun _ _ => Nat.le_refl _⟩
theorem chunkResult (s : Stable I) : Eats I 0 (P.chunkResult : P β (Except ParseError Chunk)) := by
  intro p hp
  have h := s.chunk p hp
  unfold P.chunkResult
  split <;> exact ⟨h, rfl, Nat.le_refl _, fun _ _ => Nat.le_refl _⟩
theorem advance (s : Stable I) (n : Nat) : Eats I n (P.advance n : P β Unit) := by
  intro p hp
  have h := s.advance p n hp
  unfold P.advance at h ⊢
  rcases hb : ParseBuf.advance p.data.buf n with _ | b
  · have hd : ParseBuf.advance p.data n = none := by
      show (ParseBuf.advance p.data.buf n).map _ = none
      rw [hb]; rfl
    rw [hd] at h ⊢
    exact ⟨h, rfl, Nat.le_refl _, nofun⟩
  · have hd : ParseBuf.advance p.data n = some ⟨b, p.data.offset + n⟩ := by
      show (ParseBuf.advance p.data.buf n).map _ = _
      rw [hb]; rfl
    rw [hd] at h ⊢
    exact ⟨h, rfl, Nat.le_add_right _ _, fun _ _ => Nat.le_refl _⟩

variable (s : Stable I)
include s

theorem toSliceLoop : ∀ (fuel len : Nat) (bs : List Byte), Eats I len (P.toSliceLoop fuel len bs : P β (List Byte))
  | 0, _, _ => fault _
  | fuel + 1, len, bs => by
    refine ite (fun h => h ▸ pure _) fun _ => ?_
    refine mono (bind (chunk s) fun c => ?_) (k := len) (n := 0 + len) (by omega)
    exact mono (bind (advance s (min c.data.length len)) fun _ => toSliceLoop fuel _ _) (by omega)

theorem toSlice (len : Nat) : Eats I len (P.toSlice len : P β (List Byte)) :=
  mono (bind fuel fun _ => toSliceLoop s _ len _) (by omega)

theorem bytesSlowLoop : ∀ (fuel len : Nat) (bs : List Byte), Eats I len (P.bytesSlowLoop fuel len bs : P β (List Byte))
  | 0, _, _ => fault _
  | fuel + 1, len, bs => by
    refine ite (fun h => h ▸ pure _) fun _ => ?_
    refine mono (bind (chunk s) fun c => ?_) (k := len) (n := 0 + len) (by omega)
    exact mono (bind (advance s (c.truncate len).data.length) fun _ => bytesSlowLoop fuel _ _) (by omega)

theorem ignoredLoop : ∀ (fuel len : Nat), Eats I 0 (P.ignoredLoop fuel len : P β Unit)
  | 0, _ => fault _
  | fuel + 1, len => by
    refine ite (fun _ => pure _) fun _ => skip (chunk s) fun c => skip (advance s _) fun _ => ignoredLoop fuel _

theorem bytesIgnored (len : Nat) : Eats I 0 (P.bytesIgnored len : P β Unit) := skip fuel fun _ => ignoredLoop s _ len

theorem bytesDirect (len : Nat) : Eats I 0 (P.bytesDirect len : P β (Option (Nat × List Byte))) := by
  refine skip (chunk s) fun c => ?_
  split
  · exact pure _
  · exact ite (fun _ => pure _) fun _ => skip (advance s len) fun _ => pure _

theorem sliceDirect (e : Elem T) (len : Nat) : Eats I 0 (P.sliceDirect e len : P β (Option (List T))) := by
  refine skip config fun c => ite (fun _ => pure _) fun _ => ite (fun _ => fail _) fun _ =>
    skip (bytesDirect s _) fun r => ?_
  split
  · exact pure _
  · exact ite (fun _ => pure _) fun _ => pure _

theorem array (n : Nat) : Eats I n (P.array n : P β (List Byte)) := by
  refine mono (bind (chunk s) fun c => ite (n := n) (fun _ => toSlice s n) fun _ => ?_) (by omega)
  exact mono (bind (advance s n) fun _ => pure _) (by omega)

theorem restLoop : ∀ (n : Nat) (c : Cow Byte), Eats I 0 (P.restLoop n c : P β (Cow Byte))
  | 0, _ => fault _
  | n + 1, c => by
    refine skip (chunkResult s) fun r => ?_
    split
    · exact skip (advance s _) fun _ => restLoop n _
    · exact ite (fun _ => pure _) fun _ => fail _

theorem u8 : Eats I 1 (parseU8 : P β U8) := bind (k := 0) (array s 1) fun _ => pure _
theorem u16 : Eats I 2 (parseU16 : P β U16) := bind (k := 0) (array s 2) fun _ => bind (n := 0) config fun _ => pure _
theorem u32 : Eats I 4 (parseU32 : P β U32) := bind (k := 0) (array s 4) fun _ => bind (n := 0) config fun _ => pure _
theorem u64 : Eats I 8 (parseU64 : P β U64) := bind (k := 0) (array s 8) fun _ => bind (n := 0) config fun _ => pure _

theorem namespaceEntry : Eats I 16 (parseNamespaceEntry : P β NamespaceEntry) :=
  mono (bind (u64 s) fun _ => bind (u64 s) fun _ => pure _) (by omega)
theorem branchEntry : Eats I 24 (parseBranchEntry : P β BranchEntry) :=
  mono (bind (u64 s) fun _ => bind (u64 s) fun _ => bind (u64 s) fun _ => pure _) (by omega)
theorem header : Eats I 8 (parseHeader : P β Header) :=
  mono (bind (u32 s) fun _ => bind (u16 s) fun _ => bind (u16 s) fun _ => pure _) (by omega)

omit s in
theorem parseIf (c : Bool) {m : P β α} (h : Eats I n m) : Eats I 0 (Perf.parseIf c m) := by
  cases c with
  | true => exact mono (bind h fun _ => pure _) (Nat.zero_le _)
  | false => exact pure _

theorem cpu : Eats I 8 (parseCpu : P β U32) :=
  mono (bind (u32 s) fun _ => bind (u32 s) fun _ => pure _) (by omega)

theorem sampleId : Eats I 0 (parseSampleId : P β SampleId) :=
  skip config fun _ => ite (fun _ => pure _) fun _ =>
    skip (parseIf _ (u32 s)) fun _ => skip (parseIf _ (u32 s)) fun _ => skip (parseIf _ (u64 s)) fun _ =>
    skip (parseIf _ (u64 s)) fun _ => skip (parseIf _ (u64 s)) fun _ => skip (parseIf _ (cpu s)) fun _ =>
    skip (parseIf _ (u64 s)) fun _ => pure _

omit s in
omit [ParseBuf β] in
theorem repeatedLoop {item : P β T} (h : Eats I n item) : ∀ len, Eats I (len * n) (P.repeatedLoop item len)
  | 0 => mono (pure _) (by omega)
  | len + 1 => mono (bind h fun _ => bind (repeatedLoop h len) fun _ => pure _) (by rw [Nat.add_mul]; omega)

end Eats

/-- A buffer that announces at most `B` bytes, and never shows more than `B` at once, as long as `I` holds. -/
structure Room [ParseBuf β] (B : Nat) (I : Parser β → Prop) : Prop extends Stable I where
  hint : ∀ p, I p → ∃ h, h ≤ B ∧ ParseBuf.hint p.data = some h
  chunkLen : ∀ p c, I p → (P.chunk p).res = .ok c → c.data.length ≤ B

namespace Owes
variable {I : Parser β → Prop} {B d n : Nat}

theorem _root_.Perf.Eats.owes {m : P β α} (h : Eats I n m) (hd : d ≤ n) (hB : d ≤ B) : Owes I B d m := by
  intro p hp
  obtain ⟨h1, h2, h3, h4⟩ := h p hp
  refine ⟨h1, h3, ?_⟩
  rw [h2]
  cases hm : (m p).res with
  | ok a => have := h4 a hm; simp only [slack, List.sum_nil]; omega
  | error e => simp only [slack, List.sum_nil]; omega

theorem mono {m : P β α} {d' : Nat} (h : Owes I B d m) (hd : d' ≤ d) : Owes I B d' m := fun p hp =>
  let ⟨h1, h2, h3⟩ := h p hp
  ⟨h1, h2, by omega⟩

/-- A step that pays back. -/
theorem eat {m : P β α} {c : α → P β α'} (h : Eats I n m) (hd : d ≤ B) (hc : ∀ a, Owes I B (d - n) (c a)) :
    Owes I B d (m >>= c) := by
  intro p hp
  obtain ⟨h1, h2, h3, h4⟩ := h p hp
  rcases hm : (m p).res with e | a
  · rw [P.bind_err (P.run_eq _ hm)]
    refine ⟨h1, h3, ?_⟩
    simp only [h2, slack, List.sum_nil]; omega
  · rw [P.bind_ok (P.run_eq _ hm)]
    obtain ⟨g1, g2, g3⟩ := hc a _ h1
    have h5 := h4 a hm
    refine ⟨g1, by simp only; omega, ?_⟩
    simp only [h2, List.nil_append]
    omega

/-- Two steps without debt. -/
theorem bind {m : P β α} {c : α → P β α'} (h : Owes I B 0 m) (hc : ∀ a, Owes I B 0 (c a)) : Owes I B 0 (m >>= c) := by
  intro p hp
  obtain ⟨h1, h2, h3⟩ := h p hp
  rcases hm : (m p).res with e | a
  · rw [P.bind_err (P.run_eq _ hm)]
    rw [hm] at h3
    exact ⟨h1, h2, h3⟩
  · rw [P.bind_ok (P.run_eq _ hm)]
    rw [hm] at h3
    simp only [slack] at h3
    obtain ⟨g1, g2, g3⟩ := hc a _ h1
    refine ⟨g1, by simp only; omega, ?_⟩
    simp only [List.sum_append]
    omega

/-- A request. -/
theorem alloc {c : Unit → P β α} (hc : Owes I B (d + n) (c ())) : Owes I B d (P.alloc n >>= c) := by
  intro p hp
  have ha : P.alloc n p = ⟨.ok (), p, [n]⟩ := rfl
  rw [P.bind_ok ha]
  obtain ⟨h1, h2, h3⟩ := hc p hp
  refine ⟨h1, h2, ?_⟩
  simp only [List.sum_append, List.sum_cons, List.sum_nil]
  omega

theorem pure (a : α) : Owes I B 0 (Pure.pure a : P β α) := (Eats.pure a).owes (Nat.le_refl _) (Nat.zero_le _)
theorem fault (e : Fault) (hd : d ≤ B) : Owes I B d (P.fault e : P β α) := (Eats.fault e).owes (Nat.le_refl _) hd
theorem fail (e : ParseError) (hd : d ≤ B) : Owes I B d (P.fail e : P β α) := fault _ hd
theorem ite {c : Prop} [Decidable c] {a b : P β α} (h1 : c → Owes I B d a) (h2 : ¬ c → Owes I B d b) :
    Owes I B d (if c then a else b) := by
  by_cases h : c
  · rw [if_pos h]; exact h1 h
  · rw [if_neg h]; exact h2 h
theorem config : Owes I B 0 (P.config : P β ParseConfig) := Eats.config.owes (Nat.le_refl _) (Nat.zero_le _)

variable [ParseBuf β] (r : Room B I)
include r

theorem hintBind {c : Option Nat → P β α} (hc : ∀ h, h ≤ B → Owes I B d (c (some h))) : Owes I B d (P.hint >>= c) := by
  intro p hp
  obtain ⟨h, hB, hh⟩ := r.hint p hp
  have hr : P.hint p = ⟨.ok (some h), p, []⟩ := by rw [← hh]; rfl
  rw [P.bind_nil hr]
  exact hc h hB p hp

theorem capacityBind {size : Nat} (hs : 0 < size) {c : Nat → P β α} (hc : ∀ h, h ≤ B → Owes I B d (c (h / size))) :
    Owes I B d (P.safeCapacityBound size >>= c) := by
  intro p hp
  obtain ⟨h, hB, hh⟩ := r.hint p hp
  have hr : P.safeCapacityBound size p = ⟨.ok (h / size), p, []⟩ := by
    have h0 : ¬ size = 0 := by omega
    show (if size = 0 then (Pure.pure (usizeLimit - 1) : P β Nat) else
      (P.hint >>= fun h => Pure.pure (h.getD 16384 / size))) p = _
    rw [if_neg h0]
    have hr : P.hint p = ⟨.ok (some h), p, []⟩ := by rw [← hh]; rfl
    rw [P.bind_nil hr]
    rfl
  rw [P.bind_nil hr]
  exact hc h hB p hp

/-- `chunk` followed by `to_cow`: the copy of temporary data is a debt. -/
theorem chunkCowBind {k : Cow Byte → P β α} (hk : ∀ c : Cow Byte, c.data.length ≤ B → Owes I B c.data.length (k c)) :
    Owes I B 0 (P.chunk >>= fun c => P.toCow c >>= k) := by
  intro p hp
  rcases hm : (P.chunk p).res with e | c
  · rw [P.bind_err (P.run_eq _ hm)]
    refine ⟨r.chunk p hp, Nat.le_refl _, ?_⟩
    show p.data.offset + 0 + 0 ≤ p.data.offset + B
    omega
  · rw [P.bind_nil (P.run_eq _ hm)]
    have hlen := r.chunkLen p c hp hm
    have hcd : c.toCow.data = c.data := by unfold Chunk.toCow; split <;> rfl
    refine (?_ : Owes I B 0 (P.toCow c >>= k)) _ (r.chunk p hp)
    have h := hk c.toCow (by rw [hcd]; exact hlen)
    rw [hcd] at h
    unfold P.toCow
    split
    · intro q hq
      have ha : ((P.alloc c.data.length >>= fun _ => Pure.pure c.toCow) : P β (Cow Byte)) q =
          ⟨.ok c.toCow, q, [c.data.length]⟩ := rfl
      rw [P.bind_ok ha]
      obtain ⟨h1, h2, h3⟩ := h q hq
      refine ⟨h1, h2, ?_⟩
      simp only [List.sum_append, List.sum_cons, List.sum_nil]
      omega
    · intro q hq
      rw [P.bind_nil (P.pure_run c.toCow q)]
      exact mono h (Nat.zero_le _) q hq

theorem bytesSlow (len : Nat) : Owes I B 0 (P.bytesSlow len : P β (List Byte)) := by
  refine capacityBind r (by decide) fun h hB => alloc ?_
  have h1 : h / 1 ≤ B := by rw [Nat.div_one]; exact hB
  exact eat Eats.fuel (by omega) fun n => (Eats.bytesSlowLoop r.toStable n len []).owes (by omega) (by omega)

theorem bytes (len : Nat) : Owes I B 0 (P.bytes len : P β (Cow Byte)) := by
  refine eat (Eats.bytesDirect r.toStable len) (Nat.zero_le _) fun x => ?_
  split
  · exact pure _
  · refine hintBind r fun h hB => ite (fun hl => alloc ?_) fun _ => bind (bytesSlow r len) fun _ => pure _
    have hl' : h ≥ len := of_decide_eq_true hl
    refine eat (Eats.toSlice r.toStable len) (by omega) fun _ => ?_
    rw [show 0 + len - len = 0 by omega]
    exact pure _

theorem slice (e : Elem T) (he : 0 < e.size) {item : P β T} (h : Eats I e.size item) (len : Nat) :
    Owes I B 0 (P.slice e item len : P β (Cow T)) := by
  refine eat (Eats.sliceDirect r.toStable e len) (Nat.zero_le _) fun x => ?_
  split
  · exact pure _
  · refine bind (capacityBind r he fun k hB => alloc ?_) fun _ => pure _
    have h1 : k / e.size * e.size ≤ k := Nat.div_mul_le_self _ _
    have h2 : min len (k / e.size) * e.size ≤ k / e.size * e.size := Nat.mul_le_mul_right _ (Nat.min_le_right _ _)
    have h3 : min len (k / e.size) * e.size ≤ len * e.size := Nat.mul_le_mul_right _ (Nat.min_le_left _ _)
    exact (Eats.repeatedLoop h len).owes (by omega) (by omega)

theorem rest : Owes I B 0 (P.rest : P β (Cow Byte)) :=
  chunkCowBind r fun c hc => eat (Eats.advance r.toStable _) hc fun _ => by
    rw [Nat.sub_self]
    exact eat Eats.fuel (Nat.zero_le _) fun _ => (Eats.restLoop r.toStable _ _).owes (Nat.le_refl _) (Nat.zero_le _)

theorem restTrimNul : Owes I B 0 (P.restTrimNul : P β (Cow Byte)) := bind (rest r) fun _ => pure _

theorem padded (n : Nat) {m : P β α} (h : Owes I B 0 m) : Owes I B 0 (P.padded n m) :=
  ite (fun _ => fault _ (Nat.zero_le _)) fun _ => eat Eats.offset (Nat.zero_le _) fun _ => bind h fun _ =>
    eat Eats.offset (Nat.zero_le _) fun _ => ite (fun _ => pure _) fun _ =>
      eat (Eats.bytesIgnored r.toStable _) (Nat.zero_le _) fun _ => pure _

omit r in
theorem parseIf (c : Bool) {m : P β α} (h : Owes I B 0 m) : Owes I B 0 (Perf.parseIf c m) := by
  cases c with
  | true => exact bind h fun _ => pure _
  | false => exact pure _

omit r in
theorem cowSplitAt (c : Cow T) (n : Nat) : Owes I B 0 (ParserM.cowSplitAt c n : P β (Cow T × Cow T)) := by
  show Owes I B 0 (match c.splitAt n with | some r => Pure.pure r | none => P.fault .panic)
  split
  · exact pure _
  · exact fault _ (Nat.zero_le _)

theorem u8 : Owes I B 0 (parseU8 : P β U8) := (Eats.u8 r.toStable).owes (Nat.zero_le _) (Nat.zero_le _)
theorem u16 : Owes I B 0 (parseU16 : P β U16) := (Eats.u16 r.toStable).owes (Nat.zero_le _) (Nat.zero_le _)
theorem u32 : Owes I B 0 (parseU32 : P β U32) := (Eats.u32 r.toStable).owes (Nat.zero_le _) (Nat.zero_le _)
theorem u64 : Owes I B 0 (parseU64 : P β U64) := (Eats.u64 r.toStable).owes (Nat.zero_le _) (Nat.zero_le _)
theorem array (n : Nat) : Owes I B 0 (P.array n : P β (List Byte)) :=
  (Eats.array r.toStable n).owes (Nat.zero_le _) (Nat.zero_le _)

/-! ## The record bodies -/

theorem mmap : Owes I B 0 (parseMmap : P β (Mmap Cow)) :=
  bind (u32 r) fun _ => bind (u32 r) fun _ => bind (u64 r) fun _ => bind (u64 r) fun _ => bind (u64 r) fun _ =>
  bind (restTrimNul r) fun _ => pure _
theorem lost : Owes I B 0 (parseLost : P β Lost) := bind (u64 r) fun _ => bind (u64 r) fun _ => pure _
theorem comm : Owes I B 0 (parseComm : P β (Comm Cow)) :=
  bind (u32 r) fun _ => bind (u32 r) fun _ => bind (restTrimNul r) fun _ => pure _
theorem exit : Owes I B 0 (parseExit : P β Exit) :=
  bind (u32 r) fun _ => bind (u32 r) fun _ => bind (u32 r) fun _ => bind (u32 r) fun _ => bind (u64 r) fun _ => pure _
theorem throttle : Owes I B 0 (parseThrottle : P β Throttle) :=
  bind (u64 r) fun _ => bind (u64 r) fun _ => bind (u64 r) fun _ => pure _
theorem mmapDetail : Owes I B 0 (parseMmapDetail : P β MmapDetail) :=
  bind config fun _ => ite
    (fun _ => bind (u8 r) fun _ => bind (u8 r) fun _ => bind (u16 r) fun _ => bind (array r 20) fun _ =>
      ite (fun _ => fail _ (Nat.zero_le _)) fun _ => pure _)
    fun _ => bind (u32 r) fun _ => bind (u32 r) fun _ => bind (u64 r) fun _ => bind (u64 r) fun _ => pure _
theorem mmap2 : Owes I B 0 (parseMmap2 : P β (Mmap2 Cow)) :=
  bind (u32 r) fun _ => bind (u32 r) fun _ => bind (u64 r) fun _ => bind (u64 r) fun _ => bind (u64 r) fun _ =>
  bind (mmapDetail r) fun _ => bind (u32 r) fun _ => bind (u32 r) fun _ => bind (restTrimNul r) fun _ => pure _
theorem aux : Owes I B 0 (parseAux : P β Aux) :=
  bind (u64 r) fun _ => bind (u64 r) fun _ => bind (u64 r) fun _ => pure _
theorem itraceStart : Owes I B 0 (parseITraceStart : P β ITraceStart) :=
  bind (u32 r) fun _ => bind (u32 r) fun _ => pure _
theorem lostSamples : Owes I B 0 (parseLostSamples : P β LostSamples) := bind (u64 r) fun _ => pure _
theorem switchCpuWide : Owes I B 0 (parseSwitchCpuWide : P β SwitchCpuWide) :=
  bind (u32 r) fun _ => bind (u32 r) fun _ => bind config fun _ => ite (fun _ => pure _) fun _ => pure _
theorem namespaces : Owes I B 0 (parseNamespaces : P β (Namespaces Cow)) :=
  bind (u32 r) fun _ => bind (u32 r) fun _ => bind (u64 r) fun _ =>
  bind (slice r NamespaceEntry.elem (by decide) (Eats.namespaceEntry r.toStable) _) fun _ => pure _
theorem ksymbol : Owes I B 0 (parseKSymbol : P β (KSymbol Cow)) :=
  bind (u64 r) fun _ => bind (u32 r) fun _ => bind (u16 r) fun _ => bind (u16 r) fun _ =>
  bind (restTrimNul r) fun _ => pure _
theorem bpfEvent : Owes I B 0 (parseBpfEvent : P β BpfEvent) :=
  bind (u16 r) fun _ => bind (u16 r) fun _ => bind (u32 r) fun _ => bind (array r 8) fun _ => pure _
theorem cgroup : Owes I B 0 (parseCGroup : P β (CGroup Cow)) :=
  bind (u64 r) fun _ => bind (restTrimNul r) fun _ => pure _
theorem textPoke : Owes I B 0 (parseTextPoke : P β (TextPoke Cow)) :=
  bind (u64 r) fun _ => bind (u16 r) fun _ => bind (u16 r) fun _ => bind (bytes r _) fun _ =>
  bind (cowSplitAt _ _) fun _ => pure _
theorem auxOutputHwId : Owes I B 0 (parseAuxOutputHwId : P β AuxOutputHwId) := bind (u64 r) fun _ => pure _
theorem readValue : Owes I B 0 (parseReadValue : P β ReadValue) :=
  bind config fun _ => ite (fun _ => fail _ (Nat.zero_le _)) fun _ => ite (fun _ => fail _ (Nat.zero_le _)) fun _ =>
  bind (u64 r) fun _ => bind (parseIf _ (u64 r)) fun _ => bind (parseIf _ (u64 r)) fun _ =>
  bind (parseIf _ (u64 r)) fun _ => bind (parseIf _ (u64 r)) fun _ => pure _
theorem read : Owes I B 0 (parseRead : P β Read) :=
  bind (u32 r) fun _ => bind (u32 r) fun _ => bind (readValue r) fun _ => pure _

theorem words (len : Nat) : Owes I B 0 (P.slice U64.elem parseU64 len : P β (Cow U64)) :=
  slice r U64.elem (by decide) (Eats.u64 r.toStable) len
theorem readGroup : Owes I B 0 (parseReadGroup : P β (ReadGroup Cow)) :=
  bind config fun _ => ite (fun _ => fail _ (Nat.zero_le _)) fun _ => ite (fun _ => fail _ (Nat.zero_le _)) fun _ =>
  bind (u64 r) fun _ => bind (parseIf _ (u64 r)) fun _ => bind (parseIf _ (u64 r)) fun _ =>
  ite (fun _ => fail _ (Nat.zero_le _)) fun _ => bind (words r _) fun _ => pure _
theorem values : Owes I B 0 (parseValues : P β (ReadGroup Cow)) :=
  bind config fun _ => ite (fun _ => readGroup r) fun _ => bind (readValue r) fun _ => pure _
theorem callchain : Owes I B 0 (parseCallchain : P β (Cow U64)) := bind (u64 r) fun _ => words r _
theorem rawInner : Owes I B 0 (parseRawInner : P β (Cow Byte)) := bind (u32 r) fun _ => bytes r _
theorem lbr (b : Bool) : Owes I B 0 (parseLbr b : P β (Cow BranchEntry × Option U64)) :=
  bind (u64 r) fun _ => bind (parseIf _ (u64 r)) fun _ =>
  bind (slice r BranchEntry.elem (by decide) (Eats.branchEntry r.toStable) _) fun _ => pure _
theorem registers (mask : U64) : Owes I B 0 (parseRegisters mask : P β (Registers Cow)) :=
  bind (u64 r) fun _ => bind (words r _) fun _ => pure _
theorem dynSize (size : U64) : Owes I B 0 (parseDynSize size : P β U64) := ite (fun _ => pure _) fun _ => u64 r
theorem stackUser : Owes I B 0 (parseStackUser : P β (Cow Byte)) :=
  bind (u64 r) fun _ => bind (bytes r _) fun _ => bind (dynSize r _) fun _ =>
  ite (fun _ => fail _ (Nat.zero_le _)) fun _ => pure _
theorem auxData : Owes I B 0 (parseAuxData : P β (Cow Byte)) := bind (u64 r) fun _ => bytes r _
theorem cpu : Owes I B 0 (parseCpu : P β U32) := bind (u32 r) fun _ => bind (u32 r) fun _ => pure _

theorem sample : Owes I B 0 (parseSample : P β (Sample Cow)) :=
  bind config fun _ =>
  bind (parseIf _ (u64 r)) fun _ => bind (parseIf _ (u64 r)) fun _ => bind (parseIf _ (u32 r)) fun _ =>
  bind (parseIf _ (u32 r)) fun _ => bind (parseIf _ (u64 r)) fun _ => bind (parseIf _ (u64 r)) fun _ =>
  bind (parseIf _ (u64 r)) fun _ => bind (parseIf _ (u64 r)) fun _ => bind (parseIf _ (cpu r)) fun _ =>
  bind (parseIf _ (u64 r)) fun _ => bind (parseIf _ (values r)) fun _ => bind (parseIf _ (callchain r)) fun _ =>
  bind (parseIf _ (padded r 8 (rawInner r))) fun _ => bind (parseIf _ (lbr r _)) fun _ =>
  bind (parseIf _ (bind config fun _ => registers r _)) fun _ => bind (parseIf _ (stackUser r)) fun _ =>
  bind (parseIf _ (u64 r)) fun _ => bind (parseIf _ (u64 r)) fun _ => bind (parseIf _ (u64 r)) fun _ =>
  bind (parseIf _ (bind config fun _ => registers r _)) fun _ => bind (parseIf _ (u64 r)) fun _ =>
  bind (parseIf _ (u64 r)) fun _ => bind (parseIf _ (u64 r)) fun _ => bind (parseIf _ (u64 r)) fun _ =>
  bind (parseIf _ (auxData r)) fun _ => pure _

omit r in
omit [ParseBuf β] in
theorem ofExcept (x : Except Fault α) : Owes I B 0 (P.ofExcept x : P β α) := fun p hp =>
  ⟨hp, Nat.le_refl _, by show p.data.offset + 0 + 0 ≤ _; exact Nat.le_add_right _ _⟩

theorem dispatch {O : Type} (v : Visitor Cow O) (md : Metadata) : Owes I B 0 (P.dispatch v md : P β O) := by
  unfold P.dispatch
  split
  · exact bind (mmap r) fun _ => ofExcept _
  · exact bind (lost r) fun _ => ofExcept _
  · exact bind (comm r) fun _ => ofExcept _
  · exact bind (exit r) fun _ => ofExcept _
  · exact bind (throttle r) fun _ => ofExcept _
  · exact bind (throttle r) fun _ => ofExcept _
  · exact bind (exit r) fun _ => ofExcept _
  · exact bind (read r) fun _ => ofExcept _
  · exact bind (sample r) fun _ => ofExcept _
  · exact bind (mmap2 r) fun _ => ofExcept _
  · exact bind (aux r) fun _ => ofExcept _
  · exact bind (itraceStart r) fun _ => ofExcept _
  · exact bind (lostSamples r) fun _ => ofExcept _
  · exact bind (switchCpuWide r) fun _ => ofExcept _
  · exact bind (namespaces r) fun _ => ofExcept _
  · exact bind (ksymbol r) fun _ => ofExcept _
  · exact bind (bpfEvent r) fun _ => ofExcept _
  · exact bind (cgroup r) fun _ => ofExcept _
  · exact bind (textPoke r) fun _ => ofExcept _
  · exact bind (auxOutputHwId r) fun _ => ofExcept _
  · exact bind (rest r) fun _ => ofExcept _

end Owes

/-! ## Buffers of known extent -/

/-- `J r b`: at most `r` bytes are left in `b`; its announcements stay within `H`. -/
structure Extent [ParseBuf β] (H : Nat) (J : Nat → β → Prop) : Prop where
  chunk : ∀ r b, J r b → J r (ParseBuf.chunk b).2 ∧ ∀ c, (ParseBuf.chunk b).1 = .ok c → c.data.length ≤ r
  advance : ∀ r b n b', J r b → ParseBuf.advance b n = some b' → n ≤ r ∧ J (r - n) b'
  hint : ∀ r b, J r b → ∃ h, h ≤ H ∧ ParseBuf.hint b = some h

/-- What `Room` needs: the parser has not consumed more than `H`, and the rest is still there. -/
def Extent.inv (H : Nat) (J : Nat → β → Prop) (p : Parser β) : Prop :=
  p.data.offset ≤ H ∧ J (H - p.data.offset) p.data.buf

theorem Extent.room [ParseBuf β] {H : Nat} {J : Nat → β → Prop} (e : Extent H J) : Room H (Extent.inv H J) where
  chunk p h := ⟨h.1, (e.chunk _ _ h.2).1⟩
  advance p n h := by
    unfold P.advance
    rcases hb : ParseBuf.advance p.data.buf n with _ | b
    · have hd : ParseBuf.advance p.data n = none := by
        show (ParseBuf.advance p.data.buf n).map _ = none
        rw [hb]; rfl
      rw [hd]
      exact h
    · have hd : ParseBuf.advance p.data n = some ⟨b, p.data.offset + n⟩ := by
        show (ParseBuf.advance p.data.buf n).map _ = _
        rw [hb]; rfl
      rw [hd]
      obtain ⟨h1, h2⟩ := e.advance _ _ _ _ h.2 hb
      have := h.1
      refine ⟨by show p.data.offset + n ≤ H; omega, ?_⟩
      show J (H - (p.data.offset + n)) b
      rw [Nat.sub_add_eq]
      exact h2
  hint p h := e.hint _ _ h.2
  chunkLen p c h hc := Nat.le_trans ((e.chunk _ _ h.2).2 c hc) (Nat.sub_le _ _)

/-- The wrapper `TrackingParseBuf`. -/
theorem Extent.tracking [ParseBuf β] {H : Nat} {J : Nat → β → Prop} (e : Extent H J) :
    Extent H (fun r (t : Tracking β) => J r t.buf) where
  chunk r t h := e.chunk r t.buf h
  advance r t n t' h ha := by
    rcases hb : ParseBuf.advance t.buf n with _ | b
    · have hd : ParseBuf.advance t n = none := by
        show (ParseBuf.advance t.buf n).map _ = none
        rw [hb]; rfl
      rw [hd] at ha; cases ha
    · have hd : ParseBuf.advance t n = some ⟨b, t.offset + n⟩ := by
        show (ParseBuf.advance t.buf n).map _ = _
        rw [hb]; rfl
      rw [hd] at ha; cases ha
      exact e.advance _ _ _ _ h hb
  hint r t h := e.hint r t.buf h

theorem Extent.slice (H : Nat) : Extent H (fun r (s : Slice) => s.data.length ≤ r ∧ r ≤ H) where
  chunk r s h := ⟨h, fun c hc => by
    have hc' : (if s.data = [] then .error (.err .eof) else .ok ⟨.external s.addr, s.data⟩ : Except Fault Chunk) = .ok c := hc
    split at hc'
    · cases hc'
    · cases hc'; exact h.1⟩
  advance r s n s' h ha := by
    have ha' : (if n ≤ s.data.length then some ⟨s.addr + n, s.data.drop n⟩ else none : Option Slice) = some s' := ha
    split at ha'
    · cases ha'
      simp only [List.length_drop]
      omega
    · cases ha'
  hint r s h := ⟨s.data.length, Nat.le_trans h.1 h.2, rfl⟩

theorem Cursor.slowLoop_bytes : ∀ (cs : List Chunk) (off : Nat),
    off + chunkBytes (Cursor.slowLoop cs off).1 = (Cursor.slowLoop cs off).2 + chunkBytes cs ∧
    ((Cursor.slowLoop cs off).1 ≠ [] → (Cursor.slowLoop cs off).2 ≤ chunkBytes (Cursor.slowLoop cs off).1)
  | [], off => ⟨rfl, fun h => (h rfl).elim⟩
  | c :: cs, off => by
    unfold Cursor.slowLoop
    split
    · rename_i h
      refine ⟨rfl, fun _ => ?_⟩
      show off ≤ c.data.length + chunkBytes cs
      omega
    · obtain ⟨h1, h2⟩ := Cursor.slowLoop_bytes cs (off - c.data.length)
      refine ⟨?_, h2⟩
      show _ = _ + (c.data.length + chunkBytes cs)
      omega

theorem Extent.cursor (H : Nat) : Extent H (fun r (c : Cursor) =>
    chunkBytes c.chunks ≤ c.offset + r ∧ c.offset ≤ chunkBytes c.chunks ∧ c.len ≤ H) where
  chunk r c h := ⟨h, fun d hd => by
    have hd' : c.chunk = .ok d := hd
    unfold Cursor.chunk at hd'
    split at hd'
    · cases hd'
    · rename_i x xs hx
      split at hd'
      · cases hd'
        have := h.1
        rw [hx] at this
        have h2 : x.data.length + chunkBytes xs ≤ c.offset + r := this
        simp only [List.length_drop]
        omega
      · cases hd'⟩
  advance r c n c' h ha := by
    have ha' : c.advance n = some c' := ha
    have slow : ({ c with offset := c.offset + n } : Cursor).advanceSlow = some c' →
        n ≤ r ∧ chunkBytes c'.chunks ≤ c'.offset + (r - n) ∧ c'.offset ≤ chunkBytes c'.chunks ∧ c'.len ≤ H := by
      intro hs
      obtain ⟨h1, h2⟩ := Cursor.slowLoop_bytes c.chunks (c.offset + n)
      unfold Cursor.advanceSlow at hs
      split at hs
      · rename_i off ho
        rw [ho] at h1
        have h1' : c.offset + n + 0 = off + chunkBytes c.chunks := h1
        split at hs
        · cases hs
          refine ⟨by omega, ?_, ?_, h.2.2⟩
          · exact Nat.zero_le _
          · show off ≤ 0
            omega
        · cases hs
      · rename_i d ds off ho
        rw [ho] at h1 h2
        cases hs
        have h3 := h2 (by simp)
        simp only at h1 h3 ⊢
        exact ⟨by omega, by omega, h3, h.2.2⟩
    unfold Cursor.advance at ha'
    split at ha'
    · cases ha'
    · split at ha'
      · cases ha'
      · simp only at ha'
        split at ha'
        · rename_i x xs hx
          split at ha'
          · rename_i hlt
            cases ha'
            have hb : chunkBytes c.chunks = x.data.length + chunkBytes xs := by
              have hx' : c.chunks = x :: xs := hx
              rw [hx']; rfl
            have hlt' : x.data.length > c.offset + n := hlt
            refine ⟨by omega, ?_, ?_, h.2.2⟩
            · show chunkBytes c.chunks ≤ c.offset + n + (r - n)
              omega
            · show c.offset + n ≤ chunkBytes c.chunks
              omega
          · exact slow ha'
        · exact slow ha'
  hint r c h := ⟨c.len, h.2.2, rfl⟩

/-! ## Splitting off a region -/

theorem Chunk.truncate_le (c : Chunk) (len : Nat) : (c.truncate len).data.length ≤ len := by
  unfold Chunk.truncate
  split
  · assumption
  · simp only [List.length_take]; omega

theorem chunkBytes_reverse : ∀ (a : List Chunk), chunkBytes a.reverse = chunkBytes a
  | [] => rfl
  | c :: a => by simp [chunkBytes, chunkBytes_append, chunkBytes_reverse a, Nat.add_comm]

/-- A run, whatever the buffer does, requests at most `n` bytes, and the values it returns satisfy `Q`. -/
def Costs (n : Nat) (Q : α → Prop) (m : P β α) : Prop :=
  ∀ p, (m p).log.sum ≤ n ∧ ∀ a, (m p).res = .ok a → Q a

namespace Costs
variable {n k : Nat} {Q : α → Prop} {R : α' → Prop}

theorem bind {m : P β α} {c : α → P β α'} (h : Costs n Q m) (hc : ∀ a, Q a → Costs k R (c a)) :
    Costs (n + k) R (m >>= c) := by
  intro p
  obtain ⟨h1, h2⟩ := h p
  rcases hm : (m p).res with e | a
  · rw [P.bind_err (P.run_eq _ hm)]
    exact ⟨by simp only; omega, nofun⟩
  · rw [P.bind_ok (P.run_eq _ hm)]
    obtain ⟨g1, g2⟩ := hc a (h2 a hm) (m p).st
    exact ⟨by simp only [List.sum_append]; omega, g2⟩

theorem mono {m : P β α} (h : Costs n Q m) (hk : n ≤ k) : Costs k Q m :=
  fun p => ⟨Nat.le_trans (h p).1 hk, (h p).2⟩
theorem pure {a : α} (h : Q a) : Costs 0 Q (Pure.pure a : P β α) :=
  fun p => ⟨Nat.le_refl _, fun b hb => by cases hb; exact h⟩
theorem fault (e : Fault) : Costs 0 Q (P.fault e : P β α) := fun _ => ⟨Nat.le_refl _, nofun⟩
theorem fail (e : ParseError) : Costs 0 Q (P.fail e : P β α) := fun _ => ⟨Nat.le_refl _, nofun⟩
theorem ite {c : Prop} [Decidable c] {a b : P β α} (h1 : c → Costs n Q a) (h2 : ¬ c → Costs n Q b) :
    Costs n Q (if c then a else b) := by
  by_cases h : c
  · rw [if_pos h]; exact h1 h
  · rw [if_neg h]; exact h2 h
theorem config : Costs 0 (fun _ => True) (P.config : P β ParseConfig) := fun _ => ⟨Nat.le_refl _, fun _ _ => trivial⟩
theorem _root_.Perf.Eats.costs {m : P β α} (h : Eats (fun _ => True) n m) : Costs 0 (fun _ => True) m := fun p => by
  rw [(h p trivial).2.1]
  exact ⟨Nat.le_refl _, fun _ _ => trivial⟩
theorem onChild {δ : Type} {m : P δ α} (child : Parser δ) (h : Costs n Q m) :
    Costs n (fun x => Q x.1) (P.onChild child m : P β (α × Parser δ)) := by
  intro p
  obtain ⟨h1, h2⟩ := h child
  unfold P.onChild
  rcases hm : (m child).res with e | a
  · simp only [hm]
    exact ⟨h1, nofun⟩
  · simp only [hm]
    exact ⟨h1, fun b hb => by cases hb; exact h2 a hm⟩

variable [ParseBuf β]

omit [ParseBuf β] in
theorem pushChunk (c : Chunk) (cs : List Chunk) :
    Costs c.data.length (fun x => chunkBytes x = c.data.length + chunkBytes cs) (P.pushChunk c cs : P β (List Chunk)) := by
  refine ite (fun _ => ?_) fun h => mono (pure (by omega)) (Nat.zero_le _)
  refine mono (bind (Q := fun _ => True) (n := c.data.length) ?_ fun _ _ => pure rfl) (Nat.le_refl _)
  unfold P.toCow
  split
  · exact fun p => ⟨by show [c.data.length].sum ≤ _; simp, fun _ _ => trivial⟩
  · exact mono (pure trivial) (Nat.zero_le _)

theorem stable : Stable (fun _ : Parser β => True) := ⟨fun _ _ => trivial, fun _ _ _ => trivial⟩

theorem cursorLoop : ∀ (fuel len : Nat) (cs : List Chunk),
    Costs len (fun x => chunkBytes x ≤ chunkBytes cs + len) (P.cursorLoop fuel len cs : P β (List Chunk))
  | 0, _, _ => mono (fault _) (Nat.zero_le _)
  | fuel + 1, len, cs => by
    refine ite (fun h => mono (pure (by omega)) (Nat.zero_le _)) fun _ => ?_
    refine mono (bind (Eats.chunk stable).costs fun c _ => ?_) (n := 0 + len) (by omega)
    have hl := c.truncate_le len
    refine mono (bind (pushChunk (c.truncate len) cs) fun x hx => bind (Eats.advance stable _).costs fun _ _ =>
      fun p => ⟨(cursorLoop fuel (len - (c.truncate len).data.length) x p).1, fun a ha => ?_⟩) (by omega)
    have := (cursorLoop fuel (len - (c.truncate len).data.length) x p).2 a ha
    omega

/-- The region handed out is no bigger than asked for, and copying it takes no more. -/
theorem splitAt (len : Nat) : Costs len (fun q => chunkBytes q.data.buf.chunks ≤ len ∧ q.data.buf.offset = 0 ∧
    q.data.buf.len = len ∧ q.data.offset = 0) (P.splitAt len : P β (Parser Cursor)) := by
  refine mono (bind (Q := fun c : Cursor => chunkBytes c.chunks ≤ len ∧ c.offset = 0 ∧ c.len = len)
    (bind Eats.fuel.costs fun n _ => bind (cursorLoop n len []) fun x hx => pure ?_)
    fun c hc => bind config fun _ _ => pure ⟨hc.1, hc.2.1, hc.2.2, rfl⟩) (by omega)
  rw [chunkBytes_reverse]
  have hx' : chunkBytes x ≤ 0 + len := hx
  exact ⟨by omega, rfl, rfl⟩

/-- Does the record have no trailer of its own? (`PERF_RECORD_MMAP` and `PERF_RECORD_SAMPLE` are split off once only.) -/
def once (h : Header) : Bool := h.type_.toNat = 1 ∨ h.type_.toNat = 9

theorem metadataWithHeader (h : Header) :
    Costs ((if once h then 1 else 2) * (h.size.toNat - 8))
      (fun x => chunkBytes x.1.data.buf.chunks ≤ h.size.toNat - 8 ∧ x.1.data.buf.offset = 0 ∧
        x.1.data.buf.len ≤ h.size.toNat - 8)
      (P.metadataWithHeader h : P β (Parser Cursor × Metadata)) := by
  refine ite (fun _ => mono (fail _) (Nat.zero_le _)) fun _ => ?_
  refine mono (bind (splitAt (h.size.toNat - 8)) (k := if once h then 0 else h.size.toNat - 8) fun q hq => ?_) ?_
  · refine ite (fun _ => mono (pure ⟨hq.1, hq.2.1, by rw [hq.2.2.1]; exact Nat.le_refl _⟩) (Nat.zero_le _)) fun ho => ?_
    have ho' : once h = false := decide_eq_false ho
    rw [ho', if_neg (by decide)]
    refine ite (fun _ => mono (fail _) (Nat.zero_le _)) fun _ => ?_
    refine mono (bind (onChild q (splitAt (h.size.toNat - 8 - SampleId.estimateLen q.config))) fun x hx => ?_)
      (k := h.size.toNat - 8) (n := h.size.toNat - 8 - SampleId.estimateLen q.config + 0) (by omega)
    obtain ⟨a, b⟩ := x
    refine bind (onChild (Q := fun _ => True) b (Eats.sampleId stable).costs) fun y _ => pure ?_
    have h1 : chunkBytes a.data.buf.chunks ≤ h.size.toNat - 8 - SampleId.estimateLen q.config := hx.1
    have h2 : a.data.buf.len = h.size.toNat - 8 - SampleId.estimateLen q.config := hx.2.2.1
    refine ⟨?_, hx.2.1, ?_⟩
    · show chunkBytes a.data.buf.chunks ≤ _
      omega
    · show a.data.buf.len ≤ _
      omega
  · split <;> omega

omit [ParseBuf β] in
/-- The body: as much again if it is parsed, twice as much if not. -/
theorem recordImpl {γ O : Type} [ParseBuf γ] {H : Nat} {J : Nat → γ → Prop} (e : Extent H J) (q : Parser γ) (hq : J H q.data.buf)
    (v : Visitor Cow O) (md : Metadata) (p : Parser β) :
    ((P.recordImpl q v md : P β O) p).log.sum ≤ H + slack H ((P.recordImpl q v md : P β O) p).res := by
  obtain ⟨h1, h2, h3⟩ := Owes.dispatch e.tracking.room v md (Parser.new q.data (q.config.withMisc md.misc))
    ⟨Nat.zero_le _, hq⟩
  have h4 := h1.1
  have h5 : 0 + 0 + ((P.dispatch v md : P (Tracking γ) O) (Parser.new q.data (q.config.withMisc md.misc))).log.sum ≤ _ := h3
  rcases hm : ((P.dispatch v md : P (Tracking γ) O) (Parser.new q.data (q.config.withMisc md.misc))).res with x | a
  · have hr : (P.recordImpl q v md : P β O) p = ⟨.error x, p,
        ((P.dispatch v md : P (Tracking γ) O) (Parser.new q.data (q.config.withMisc md.misc))).log⟩ := by
      refine P.bind_err ?_
      unfold P.onChild
      simp only [hm]
    rw [hr]
    rw [hm] at h5
    simp only [slack] at h5 ⊢
    omega
  · have hr : (P.recordImpl q v md : P β O) p = ⟨.ok a, p,
        ((P.dispatch v md : P (Tracking γ) O) (Parser.new q.data (q.config.withMisc md.misc))).log ++ []⟩ := by
      refine P.bind_ok (a := (a, ((P.dispatch v md : P (Tracking γ) O) (Parser.new q.data (q.config.withMisc md.misc))).st)) ?_
      unfold P.onChild
      simp only [hm]
    rw [hr]
    rw [hm] at h5
    simp only [slack, List.append_nil] at h5 ⊢
    omega

/-- A whole record, given its header. -/
theorem recordWithHeader {O : Type} (v : Visitor Cow O) (h : Header) (p : Parser β) {n : Nat}
    (hn : ((P.metadataWithHeader h : P β (Parser Cursor × Metadata)) p).log.sum ≤ n) :
    (P.recordWithHeader v h p).log.sum ≤ n + (h.size.toNat - 8) + slack (h.size.toNat - 8) (P.recordWithHeader v h p).res := by
  have hq := (metadataWithHeader h p).2
  rcases hm : ((P.metadataWithHeader h : P β (Parser Cursor × Metadata)) p).res with e | ⟨q, md⟩
  · have hr : P.recordWithHeader v h p = _ := P.bind_err (P.run_eq _ hm)
    rw [hr]
    simp only
    omega
  · obtain ⟨h1, h2, h3⟩ := hq _ hm
    simp only at h1 h2 h3
    have hr : P.recordWithHeader v h p = _ := P.bind_ok (P.run_eq _ hm)
    rw [hr]
    simp only [List.sum_append]
    have body : ∀ m : P β O, (∀ st, (m st).log.sum ≤ (h.size.toNat - 8) + slack (h.size.toNat - 8) (m st).res) →
        ∀ st, ((P.metadataWithHeader h : P β (Parser Cursor × Metadata)) p).log.sum + (m st).log.sum ≤
          n + (h.size.toNat - 8) + slack (h.size.toNat - 8) (m st).res := by
      intro m hm st
      have := hm st
      omega
    refine body (match q.data.buf.asSlice with
      | some data => P.recordImpl (Parser.new data q.config) v md
      | none => P.recordImpl q v md) (fun st => ?_) _
    rcases hd : q.data.buf.asSlice with _ | d
    · exact recordImpl (Extent.cursor (h.size.toNat - 8)) q ⟨by omega, by omega, h3⟩ v md st
    · refine recordImpl (Extent.slice (h.size.toNat - 8)) _ ⟨?_, Nat.le_refl _⟩ v md st
      show d.data.length ≤ _
      unfold Cursor.asSlice at hd
      split at hd
      · rename_i a d' hc
        cases hd
        rw [hc] at h1
        exact h1
      · cases hd

end Costs

/-! ## Memory against bytes consumed -/

/-- What may be unpaid after a panic of the buffer. -/
def panicSlack (B : Nat) : Except Fault α → Nat
  | .error .panic => B
  | _ => 0

theorem panicSlack_error (B : Nat) (e : Fault) :
    panicSlack B (.error e : Except Fault α) = panicSlack B (.error e : Except Fault α') := by cases e <;> rfl

/-- Requests are at most what was consumed, unless there was a panic; a value is returned only after `n` bytes. -/
def Pays (B n : Nat) (m : P β α) : Prop :=
  ∀ p, p.data.offset ≤ (m p).st.data.offset ∧
    p.data.offset + (m p).log.sum ≤ (m p).st.data.offset + panicSlack B (m p).res ∧
    ∀ a, (m p).res = .ok a → p.data.offset + n ≤ (m p).st.data.offset

theorem Pays.cursorLoop [ParseBuf β] : ∀ (fuel len : Nat) (cs : List Chunk),
    Pays len len (P.cursorLoop fuel len cs : P β (List Chunk))
  | 0, _, _ => fun p => ⟨Nat.le_refl _, Nat.le_add_right _ _, nofun⟩
  | fuel + 1, len, cs => by
    intro p
    by_cases h0 : len = 0
    · have hr : (P.cursorLoop (fuel + 1) len cs : P β (List Chunk)) p = ⟨.ok cs, p, []⟩ := by
        unfold P.cursorLoop
        rw [if_pos h0]; rfl
      rw [hr]
      exact ⟨Nat.le_refl _, Nat.le_refl _, fun _ _ => by simp only; omega⟩
    have hr : (P.cursorLoop (fuel + 1) len cs : P β (List Chunk)) p = (P.chunk >>= fun c => P.pushChunk (c.truncate len) cs >>=
        fun cs => P.advance (c.truncate len).data.length >>= fun _ =>
          P.cursorLoop fuel (len - (c.truncate len).data.length) cs) p := by
      conv => lhs; unfold P.cursorLoop
      rw [if_neg h0]
    rw [hr]
    rcases hc : (P.chunk p).res with e | c
    · rw [P.bind_err (P.run_eq _ hc)]
      exact ⟨Nat.le_refl _, Nat.le_add_right _ _, nofun⟩
    have ho : (P.chunk p).st.data.offset = p.data.offset := rfl
    rw [P.bind_nil (P.run_eq _ hc)]
    generalize (P.chunk p).st = q at ho
    have hl := c.truncate_le len
    have hp := Costs.pushChunk (β := β) (c.truncate len) cs q
    have hpush : ∃ cs' l, (P.pushChunk (c.truncate len) cs : P β (List Chunk)) q = ⟨.ok cs', q, l⟩ := by
      unfold P.pushChunk P.toCow
      split
      · split <;> exact ⟨_, _, rfl⟩
      · exact ⟨_, _, rfl⟩
    obtain ⟨cs', l, hpe⟩ := hpush
    rw [hpe] at hp
    have hls : l.sum ≤ (c.truncate len).data.length := hp.1
    rw [P.bind_ok hpe]
    obtain ⟨_, a2, a3, a4⟩ := Eats.advance (β := β) Costs.stable (c.truncate len).data.length q trivial
    rcases ha : (P.advance (c.truncate len).data.length q).res with e | u
    · have hpanic : e = .panic := by
        unfold P.advance at ha
        split at ha <;> cases ha
        rfl
      rw [P.bind_err (P.run_eq _ ha), a2]
      subst hpanic
      refine ⟨by simp only; omega, ?_, nofun⟩
      simp only [panicSlack, List.append_nil]
      omega
    · have ha' : P.advance (c.truncate len).data.length q = ⟨.ok u, (P.advance (c.truncate len).data.length q).st, []⟩ := by
        rw [← a2]; exact P.run_eq _ ha
      rw [P.bind_nil ha']
      have a5 := a4 u ha
      generalize (P.advance (c.truncate len).data.length q).st = q' at a3 a5
      obtain ⟨i1, i2, i3⟩ := cursorLoop fuel (len - (c.truncate len).data.length) cs' q'
      have hs : panicSlack (len - (c.truncate len).data.length)
          ((P.cursorLoop fuel (len - (c.truncate len).data.length) cs' : P β (List Chunk)) q').res ≤
          panicSlack len ((P.cursorLoop fuel (len - (c.truncate len).data.length) cs' : P β (List Chunk)) q').res := by
        unfold panicSlack
        split <;> omega
      refine ⟨by simp only; omega, ?_, fun a ha => ?_⟩
      · simp only [List.sum_append]
        omega
      · have := i3 a ha
        simp only
        omega

theorem Pays.splitAt [ParseBuf β] (len : Nat) : Pays len len (P.splitAt len : P β (Parser Cursor)) := by
  intro p
  have h := Pays.cursorLoop (ParseBuf.steps p.data + 1) len [] p
  have hf : P.fuel p = ⟨.ok (ParseBuf.steps p.data + 1), p, []⟩ := rfl
  rcases hm : ((P.cursorLoop (ParseBuf.steps p.data + 1) len [] : P β (List Chunk)) p).res with e | cs
  · have h1 : (P.newCursor len : P β Cursor) p = _ := (P.bind_nil hf).trans (P.bind_err (P.run_eq _ hm))
    have h2 : (P.splitAt len : P β (Parser Cursor)) p = _ := P.bind_err h1
    rw [h2]
    rw [hm] at h
    refine ⟨h.1, ?_, nofun⟩
    have h3 := h.2.1
    rw [panicSlack_error (α' := Parser Cursor)] at h3
    exact h3
  · have h1 : (P.newCursor len : P β Cursor) p = _ := (P.bind_nil hf).trans (P.bind_ok (P.run_eq _ hm))
    have h2 : (P.splitAt len : P β (Parser Cursor)) p = _ := P.bind_ok h1
    rw [h2]
    rw [hm] at h
    have hl : ((P.cursorLoop (ParseBuf.steps p.data + 1) len [] : P β (List Chunk)) p).log ++ [] ++ [] =
      ((P.cursorLoop (ParseBuf.steps p.data + 1) len [] : P β (List Chunk)) p).log := by simp
    refine ⟨h.1, ?_, fun _ _ => h.2.2 cs rfl⟩
    show p.data.offset + (((P.cursorLoop (ParseBuf.steps p.data + 1) len [] : P β (List Chunk)) p).log ++ [] ++ []).sum ≤ _
    rw [hl]
    exact h.2.1

/-! ## Borrowed input is not copied -/

/-- While `I` holds `m` keeps it, requests no memory, and returns what satisfies `Q`. -/
def Free (I : Parser β → Prop) (Q : α → Prop) (m : P β α) : Prop :=
  ∀ p, I p → I (m p).st ∧ (m p).log = [] ∧ ∀ a, (m p).res = .ok a → Q a

/-- `I` survives the buffer operations, and all chunks are borrowed from outside. -/
structure External [ParseBuf β] (I : Parser β → Prop) : Prop extends Stable I where
  loc : ∀ p c, I p → (P.chunk p).res = .ok c → c.loc ≠ .temporary

namespace Free
variable {I : Parser β → Prop} {Q : α → Prop} {R : α' → Prop}

theorem bind {m : P β α} {c : α → P β α'} (h : Free I Q m) (hc : ∀ a, Q a → Free I R (c a)) : Free I R (m >>= c) := by
  intro p hp
  obtain ⟨h1, h2, h3⟩ := h p hp
  rcases hm : (m p).res with e | a
  · rw [P.bind_err (P.run_eq _ hm)]
    exact ⟨h1, h2, nofun⟩
  · rw [P.bind_ok (P.run_eq _ hm)]
    obtain ⟨g1, g2, g3⟩ := hc a (h3 a hm) _ h1
    exact ⟨g1, by simp only [h2, g2, List.append_nil], g3⟩

theorem pure {a : α} (h : Q a) : Free I Q (Pure.pure a : P β α) := fun _ hp => ⟨hp, rfl, fun b hb => by cases hb; exact h⟩
theorem fault (e : Fault) : Free I Q (P.fault e : P β α) := fun _ hp => ⟨hp, rfl, nofun⟩
theorem fail (e : ParseError) : Free I Q (P.fail e : P β α) := fun _ hp => ⟨hp, rfl, nofun⟩
theorem ite {c : Prop} [Decidable c] {a b : P β α} (h1 : c → Free I Q a) (h2 : ¬ c → Free I Q b) :
    Free I Q (if c then a else b) := by
  by_cases h : c
  · rw [if_pos h]; exact h1 h
  · rw [if_neg h]; exact h2 h
theorem _root_.Perf.Eats.free {n : Nat} {m : P β α} (h : Eats I n m) : Free I (fun _ => True) m := fun p hp =>
  ⟨(h p hp).1, (h p hp).2.1, fun _ _ => trivial⟩
theorem onChild {δ : Type} {J : Parser δ → Prop} {m : P δ α} {child : Parser δ} (hc : J child) (h : Free J Q m) :
    Free I (fun x => Q x.1 ∧ J x.2) (P.onChild child m : P β (α × Parser δ)) := by
  intro p hp
  obtain ⟨h1, h2, h3⟩ := h child hc
  unfold P.onChild
  rcases hm : (m child).res with e | a
  · simp only [hm]
    exact ⟨hp, h2, nofun⟩
  · simp only [hm]
    exact ⟨hp, h2, fun b hb => by cases hb; exact ⟨h3 a hm, h1⟩⟩

variable [ParseBuf β] (e : External I)
include e

theorem cursorLoop : ∀ (fuel len : Nat) (cs : List Chunk), (∀ c ∈ cs, c.loc ≠ .temporary) →
    Free I (fun x => ∀ c ∈ x, c.loc ≠ .temporary) (P.cursorLoop fuel len cs : P β (List Chunk))
  | 0, _, _, _ => fault _
  | fuel + 1, len, cs, hcs => by
    refine ite (fun _ => pure hcs) fun _ => ?_
    have hchunk : Free I (fun c => c.loc ≠ .temporary) (P.chunk : P β Chunk) :=
      fun p hp => ⟨e.chunk p hp, rfl, fun c hc => e.loc p c hp hc⟩
    refine bind hchunk fun c hc => bind (Q := fun x => ∀ c ∈ x, c.loc ≠ .temporary) ?_ fun x hx =>
      bind (Eats.advance e.toStable _).free fun _ _ => cursorLoop fuel _ x hx
    have ht : (c.truncate len).loc ≠ .temporary := by
      unfold Chunk.truncate
      split <;> exact hc
    refine ite (fun _ => bind (Q := fun _ => True) ?_ fun _ _ => pure ?_) fun _ => pure hcs
    · unfold P.toCow
      split
      · rename_i h; exact absurd h ht
      · exact pure trivial
    · intro d hd
      rcases List.mem_cons.1 hd with rfl | hd
      · exact ht
      · exact hcs d hd

theorem splitAt (len : Nat) : Free I (fun q => ∀ c ∈ q.data.buf.chunks, c.loc ≠ .temporary)
    (P.splitAt len : P β (Parser Cursor)) :=
  bind (Q := fun c : Cursor => ∀ d ∈ c.chunks, d.loc ≠ .temporary)
    (bind Eats.fuel.free fun n _ => bind (cursorLoop e n len [] (fun _ h => by cases h)) fun x hx =>
      pure fun d hd => hx d (List.mem_reverse.1 hd))
    fun c hc => bind Eats.config.free fun _ _ => pure hc

end Free

/-- Regions of borrowed chunks. -/
theorem External.cursor : External (fun p : Parser Cursor => ∀ c ∈ p.data.buf.chunks, c.loc ≠ .temporary) where
  chunk p h := h
  advance p n h := by
    have slow : ∀ (cs : List Chunk) (off : Nat), ∀ c ∈ (Cursor.slowLoop cs off).1, c ∈ cs := by
      intro cs
      induction cs with
      | nil => intro off c hc; exact hc
      | cons d ds ih =>
        intro off c hc
        unfold Cursor.slowLoop at hc
        split at hc
        · exact hc
        · exact List.mem_cons_of_mem _ (ih _ c hc)
    have adv : ∀ (b b' : Cursor), b.advance n = some b' → ∀ c ∈ b'.chunks, c ∈ b.chunks := by
      intro b b' hb
      have hs : ({ b with offset := b.offset + n } : Cursor).advanceSlow = some b' → ∀ c ∈ b'.chunks, c ∈ b.chunks := by
        intro hs c hc
        have := slow b.chunks (b.offset + n) c
        unfold Cursor.advanceSlow at hs
        split at hs
        · split at hs
          · cases hs; cases hc
          · cases hs
        · rename_i d ds off ho
          rw [ho] at this
          cases hs
          exact this hc
      unfold Cursor.advance at hb
      split at hb
      · cases hb
      · split at hb
        · cases hb
        · simp only at hb
          split at hb
          · split at hb
            · cases hb; exact fun c hc => hc
            · exact hs hb
          · exact hs hb
    unfold P.advance
    rcases hb : ParseBuf.advance p.data.buf n with _ | b
    · have hd : ParseBuf.advance p.data n = none := by
        show (ParseBuf.advance p.data.buf n).map _ = none
        rw [hb]; rfl
      rw [hd]
      exact h
    · have hd : ParseBuf.advance p.data n = some ⟨b, p.data.offset + n⟩ := by
        show (ParseBuf.advance p.data.buf n).map _ = _
        rw [hb]; rfl
      rw [hd]
      exact fun c hc => h c (adv _ _ hb c hc)
  loc p c h hc := by
    have hc' : p.data.buf.chunk = .ok c := hc
    unfold Cursor.chunk at hc'
    split at hc'
    · cases hc'
    · rename_i d ds hd
      have := h d (by rw [hd]; exact List.mem_cons_self)
      split at hc'
      · cases hc'
        simp only
        split
        · exact Loc.noConfusion
        · rename_i hl; exact absurd hl this
      · cases hc'

theorem External.slice : External (fun _ : Parser Slice => True) where
  chunk _ _ := trivial
  advance _ _ _ := trivial
  loc p c _ hc := by
    have hc' : (if p.data.buf.data = [] then .error (.err .eof) else .ok ⟨.external p.data.buf.addr, p.data.buf.data⟩ :
      Except Fault Chunk) = .ok c := hc
    split at hc'
    · cases hc'
    · cases hc'; exact Loc.noConfusion

theorem External.chunkBuf : External (fun _ : Parser ChunkBuf => True) where
  chunk _ _ := trivial
  advance _ _ _ := trivial
  loc p c _ hc := by
    have hc' : (match p.data.buf.pieces with
      | [] => .error (.err .eof)
      | s :: _ => .ok ⟨.external s.addr, s.data⟩ : Except Fault Chunk) = .ok c := hc
    split at hc'
    · cases hc'
    · cases hc'; exact Loc.noConfusion

theorem Free.metadataWithHeader [ParseBuf β] {I : Parser β → Prop} (e : External I) (h : Header) :
    Free I (fun _ => True) (P.metadataWithHeader h : P β (Parser Cursor × Metadata)) :=
  ite (fun _ => fail _) fun _ => bind (splitAt e _) fun _ hq => ite (fun _ => pure trivial) fun _ =>
    ite (fun _ => fail _) fun _ => bind (onChild (J := fun p => ∀ c ∈ p.data.buf.chunks, c.loc ≠ .temporary) hq
      (splitAt External.cursor _)) fun _ hx =>
      bind (onChild (J := fun p => ∀ c ∈ p.data.buf.chunks, c.loc ≠ .temporary) hx.2
        (Eats.sampleId External.cursor.toStable).free) fun _ _ => pure trivial

end Perf
