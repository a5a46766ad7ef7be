import Verif.Proof.WErrSample
/-!
# With what errors the body of a record is refused in pieces of memory, exactly
-/
namespace Perf
open ParserM
variable {cfg : ParseConfig} {o : Order} {w : Nat → Nat → Option Nat} {α α' V : Type}

/-! ## Bodies whose only error is `Eof` -/

/-- Whatever the input, the only error is `Eof`. -/
def Mild (s : Woven w α) : Prop := ∀ f e, s f = .error (.err e) → e = .eof

namespace Mild

theorem pure (a : α) : Mild (Pure.pure a : Woven w α) := fun f e h => by cases h

theorem bind {s : Woven w α} {k : α → Woven w α'} (h : Mild s) (hk : ∀ a, Mild (k a)) : Mild (s >>= k) := by
  intro f e he
  rw [Woven.bind_eq] at he
  rcases hm : s f with x | ⟨a, g⟩ <;> rw [hm] at he
  · have he : (Except.error x : Except Fault (α' × Flat)) = .error (.err e) := he
    cases he
    exact h f e hm
  · exact hk a g e he

theorem config : Mild (ParserM.config : Woven w ParseConfig) := fun f e h => by cases h

theorem take (n : Nat) : Mild (Woven.take n : Woven w (List Byte)) := fun f e h => by
  unfold Woven.take at h
  split at h <;> cases h
  rfl

theorem array (n : Nat) : Mild (ParserM.array n : Woven w (List Byte)) := fun f e h => by
  have h : Woven.array n f = _ := h
  unfold Woven.array at h
  split at h
  · cases h
    rfl
  · exact take n f e h

theorem bytes (n : Nat) : Mild (ParserM.bytes n : Woven w (List Byte)) := array n

theorem rest : Mild (ParserM.rest : Woven w (List Byte)) := fun f e h => by
  have h : Woven.rest f = _ := h
  unfold Woven.rest at h
  split at h <;> cases h
  rfl

theorem name : Mild (ParserM.restTrimNul : Woven w (List Byte)) := bind rest fun _ => pure _
theorem u8 : Mild (parseU8 : Woven w U8) := bind (array 1) fun _ => pure _
theorem u16 : Mild (parseU16 : Woven w U16) := bind (array 2) fun _ => bind config fun _ => pure _
theorem u32 : Mild (parseU32 : Woven w U32) := bind (array 4) fun _ => bind config fun _ => pure _
theorem u64 : Mild (parseU64 : Woven w U64) := bind (array 8) fun _ => bind config fun _ => pure _

theorem split (data : List Byte) (n : Nat) : Mild (ParserM.cowSplitAt data n : Woven w (List Byte × List Byte)) := fun f e h => by
  simp only [ParserM.cowSplitAt] at h
  cases hc : (Woven.asRead w f data).splitAt n <;> rw [hc] at h <;> cases h

theorem ite {c : Prop} [Decidable c] {s t : Woven w α} (h : Mild s) (h' : Mild t) : Mild (if c then s else t) := by
  split
  · exact h
  · exact h'

theorem quiet {s : Woven w α} (h : Mild s) : NoComplaint cfg s := WErr.quiet h

end Mild

/-! ## The others -/

namespace WErr

theorem read (hs : Src cfg o) (misc : U16) {wf : Nat → Nat → Nat → Option Nat} : WErr cfg (parseRead : Woven w Read) fun e k bs => BodyWrong o cfg misc (wf k) 8 bs e := by
  refine (u32.after (WEnc.u32 hs) (fun _ _ _ => trivial) fun pid => u32.after (WEnc.u32 hs) (fun _ _ _ => trivial) fun tid => (readValue hs).map _).re
    fun e k bs _ => ?_
  constructor
  · rintro ⟨pid, _, rfl, tid, tl, rfl, ⟨h1, rfl⟩ | ⟨h1, h2, rfl⟩⟩ <;> rw [← List.append_assoc]
    · exact .readGroup pid tid tl h1
    · exact .readFlags pid tid tl h1 h2
  · intro h
    cases h with
    | readGroup pid tid tl h1 => exact ⟨pid, _, List.append_assoc _ _ _, tid, tl, rfl, .inl ⟨h1, rfl⟩⟩
    | readFlags pid tid tl h1 h2 => exact ⟨pid, _, List.append_assoc _ _ _, tid, tl, rfl, .inr ⟨h1, h2, rfl⟩⟩

theorem namespaces (hs : Src cfg o) (misc : U16) {wf : Nat → Nat → Nat → Option Nat} : WErr cfg (parseNamespaces : Woven w (Namespaces List)) fun e k bs =>
    BodyWrong o cfg misc (wf k) 16 bs e := by
  refine (u32.after (WEnc.u32 hs) (fun _ _ _ => trivial) fun pid => u32.after (WEnc.u32 hs) (fun _ _ _ => trivial) fun tid =>
    u64.after (WEnc.u64 hs) (fun _ _ _ => trivial) fun nr => (WErr.slice (WEnc.namespaceEntry hs)
      (Mild.bind Mild.u64 fun _ => Mild.bind Mild.u64 fun _ => Mild.pure _).quiet nr.toNat).map _).re fun e k bs _ => ?_
  constructor
  · rintro ⟨pid, _, rfl, tid, _, rfl, nr, tl, rfl, h1, h2, rfl⟩
    rw [← List.append_assoc, ← List.append_assoc]
    exact .namespaces pid tid nr tl h1 h2
  · intro h
    cases h with
    | namespaces pid tid nr tl h1 h2 => exact ⟨pid, _, by rw [List.append_assoc, List.append_assoc], tid, _, rfl, nr, tl, rfl, h1, h2, rfl⟩

theorem mmapDetail (hs : Src cfg o) : WErr cfg (parseMmapDetail : Woven w MmapDetail) fun e _ bs => cfg.misc.getLsbD 14 = true ∧
    ∃ (size r1 : U8) (r2 : U16) (id tl : List Byte), bs = (KDetail.buildId size r1 r2 id).enc o ++ tl ∧ id.length = 20 ∧ 20 < size.toNat ∧
      e = .custom .invalidRecord s!"build_id had invalid length ({size.toNat} > 20)" := by
  have hid : ∀ size : U8, WErr cfg ((ParserM.array 20 : Woven w (List Byte)) >>= fun id => if size.toNat > id.length then
        ParserM.fail (.custom .invalidRecord s!"build_id had invalid length ({size.toNat} > 20)")
      else Pure.pure (MmapDetail.buildId id size)) fun e _ bs => ∃ id tl, bs = id ++ tl ∧ id.length = 20 ∧ 20 < size.toNat ∧
        e = .custom .invalidRecord s!"build_id had invalid length ({size.toNat} > 20)" := by
    intro size
    refine ((WErr.array 20).bind (WEnc.array 20) fun _ id _ _ => WErr.ite (fun _ => WErr.fail _) fun _ => WErr.pure _).re fun e k bs _ => ?_
    simp only [and_false, or_false, false_or]
    constructor
    · rintro ⟨id', tl, rfl, ⟨h1, _⟩, h2, rfl⟩
      have h2 : size.toNat > id'.length := h2
      exact ⟨id', tl, rfl, h1, by omega, rfl⟩
    · rintro ⟨id', tl, rfl, h1, h2, rfl⟩
      refine ⟨id', tl, rfl, ⟨h1, fun h0 => ?_⟩, ?_, rfl⟩
      · rw [h0] at h1; cases h1
      · show size.toNat > id'.length
        omega
  refine WErr.config ((WErr.ite (fun _ => u8.after WEnc.u8 (fun _ _ _ => trivial) fun size => u8.after WEnc.u8 (fun _ _ _ => trivial) fun r1 =>
    u16.after (WEnc.u16 hs) (fun _ _ _ => trivial) fun r2 => hid size)
    fun _ => (Mild.bind Mild.u32 fun _ => Mild.bind Mild.u32 fun _ => Mild.bind Mild.u64 fun _ => Mild.bind Mild.u64 fun _ => Mild.pure _).quiet).re
    fun e k bs _ => ?_)
  rw [misc_bit _ 14 _ (by decide) (by omega)]
  simp only [and_false, or_false]
  refine and_congr Iff.rfl ?_
  constructor
  · rintro ⟨size, _, rfl, r1, _, rfl, r2, _, rfl, id, tl, rfl, h1, h2, rfl⟩
    exact ⟨size, r1, r2, id, tl, by simp [KDetail.enc], h1, h2, rfl⟩
  · rintro ⟨size, r1, r2, id, tl, rfl, h1, h2, rfl⟩
    exact ⟨size, [r1] ++ (e16 o r2 ++ (id ++ tl)), by simp [KDetail.enc], r1, _, rfl, r2, _, rfl, id, tl, rfl, h1, h2, rfl⟩

theorem mmap2 (hs : Src cfg o) {wf : Nat → Nat → Nat → Option Nat} : WErr cfg (parseMmap2 : Woven w (Mmap2 List)) fun e k bs =>
    BodyWrong o cfg cfg.misc (wf k) 10 bs e := by
  refine (u32.after (WEnc.u32 hs) (fun _ _ _ => trivial) fun pid => u32.after (WEnc.u32 hs) (fun _ _ _ => trivial) fun tid =>
    u64.after (WEnc.u64 hs) (fun _ _ _ => trivial) fun addr => u64.after (WEnc.u64 hs) (fun _ _ _ => trivial) fun len =>
    u64.after (WEnc.u64 hs) (fun _ _ _ => trivial) fun pgoff => ((mmapDetail hs).bind (WEnc.mmapDetail hs) fun _ d _ _ =>
      (Mild.bind Mild.u32 fun _ => Mild.bind Mild.u32 fun _ => Mild.bind Mild.name fun _ => Mild.pure _).quiet).re fun e k bs _ =>
        ⟨fun h => h.elim id fun ⟨_, _, _, _, h⟩ => h.elim, .inl⟩).re fun e k bs _ => ?_
  constructor
  · rintro ⟨pid, _, rfl, tid, _, rfl, addr, _, rfl, len, _, rfl, pgoff, _, rfl, hm, size, r1, r2, id, tl, rfl, h1, h2, rfl⟩
    simp only [← List.append_assoc]
    exact .buildId pid tid addr len pgoff size r1 r2 id tl hm h1 h2
  · intro h
    cases h with
    | buildId pid tid addr len pgoff size r1 r2 id tl hm h1 h2 =>
      exact ⟨pid, _, by simp only [List.append_assoc], tid, _, rfl, addr, _, rfl, len, _, rfl, pgoff, _, rfl, hm, size, r1, r2, id, tl, rfl, h1, h2, rfl⟩

/-- With what errors a body is refused. -/
theorem body (hs : Src cfg o) (wf : cfg.Wf) (ty : U32) : WErr cfg (parseBody ty : Woven w (Record List)) fun e k bs =>
    BodyWrong o cfg cfg.misc (fun i n => w (k + i) n) ty.toNat bs e := by
  have mild : ∀ {s : Woven w (Record List)}, Mild s → (∀ w bs e, ¬ BodyWrong o cfg cfg.misc w ty.toNat bs e) → WErr cfg s fun e k bs =>
      BodyWrong o cfg cfg.misc (fun i n => w (k + i) n) ty.toNat bs e := fun h h' =>
    h.quiet.re fun _ _ _ _ => ⟨False.elim, h' _ _ _⟩
  have other : ∀ {t : Nat}, ty.toNat = t → t ≠ 8 → t ≠ 9 → t ≠ 10 → t ≠ 16 → ∀ w bs e, ¬ BodyWrong o cfg cfg.misc w ty.toNat bs e := by
    intro t ht h8 h9 h10 h16 w bs e h
    rw [ht] at h
    cases h <;> contradiction
  unfold parseBody
  split
  · next h => exact mild ((Mild.u32.bind fun _ => Mild.u32.bind fun _ => Mild.u64.bind fun _ => Mild.u64.bind fun _ => Mild.u64.bind fun _ => Mild.name.bind fun _ => .pure _).bind fun _ => .pure _) (other h (by omega) (by omega) (by omega) (by omega))
  · next h => exact mild ((Mild.u64.bind fun _ => Mild.u64.bind fun _ => .pure _).bind fun _ => .pure _) (other h (by omega) (by omega) (by omega) (by omega))
  · next h => exact mild ((Mild.u32.bind fun _ => Mild.u32.bind fun _ => Mild.name.bind fun _ => .pure _).bind fun _ => .pure _) (other h (by omega) (by omega) (by omega) (by omega))
  · next h => exact mild ((Mild.u32.bind fun _ => Mild.u32.bind fun _ => Mild.u32.bind fun _ => Mild.u32.bind fun _ => Mild.u64.bind fun _ => .pure _).bind fun _ => .pure _) (other h (by omega) (by omega) (by omega) (by omega))
  · next h => exact mild ((Mild.u64.bind fun _ => Mild.u64.bind fun _ => Mild.u64.bind fun _ => .pure _).bind fun _ => .pure _) (other h (by omega) (by omega) (by omega) (by omega))
  · next h => exact mild ((Mild.u64.bind fun _ => Mild.u64.bind fun _ => Mild.u64.bind fun _ => .pure _).bind fun _ => .pure _) (other h (by omega) (by omega) (by omega) (by omega))
  · next h => exact mild ((Mild.u32.bind fun _ => Mild.u32.bind fun _ => Mild.u32.bind fun _ => Mild.u32.bind fun _ => Mild.u64.bind fun _ => .pure _).bind fun _ => .pure _) (other h (by omega) (by omega) (by omega) (by omega))
  · next h => rw [h]; exact (read hs cfg.misc (wf := fun k i n => w (k + i) n)).map _
  · next h => rw [h]; exact (sample hs wf cfg.misc).map _
  · next h => rw [h]; exact (mmap2 hs (wf := fun k i n => w (k + i) n)).map _
  · next h => exact mild ((Mild.u64.bind fun _ => Mild.u64.bind fun _ => Mild.u64.bind fun _ => .pure _).bind fun _ => .pure _) (other h (by omega) (by omega) (by omega) (by omega))
  · next h => exact mild ((Mild.u32.bind fun _ => Mild.u32.bind fun _ => .pure _).bind fun _ => .pure _) (other h (by omega) (by omega) (by omega) (by omega))
  · next h => exact mild ((Mild.u64.bind fun _ => .pure _).bind fun _ => .pure _) (other h (by omega) (by omega) (by omega) (by omega))
  · next h => exact mild ((Mild.u32.bind fun _ => Mild.u32.bind fun _ => Mild.config.bind fun _ => .ite (.pure _) (.pure _)).bind fun _ => .pure _) (other h (by omega) (by omega) (by omega) (by omega))
  · next h => rw [h]; exact (namespaces hs cfg.misc (wf := fun k i n => w (k + i) n)).map _
  · next h => exact mild ((Mild.u64.bind fun _ => Mild.u32.bind fun _ => Mild.u16.bind fun _ => Mild.u16.bind fun _ => Mild.name.bind fun _ => .pure _).bind fun _ => .pure _) (other h (by omega) (by omega) (by omega) (by omega))
  · next h => exact mild ((Mild.u16.bind fun _ => Mild.u16.bind fun _ => Mild.u32.bind fun _ => (Mild.array 8).bind fun _ => .pure _).bind fun _ => .pure _) (other h (by omega) (by omega) (by omega) (by omega))
  · next h => exact mild ((Mild.u64.bind fun _ => Mild.name.bind fun _ => .pure _).bind fun _ => .pure _) (other h (by omega) (by omega) (by omega) (by omega))
  · next h => exact mild ((Mild.u64.bind fun _ => Mild.u16.bind fun _ => Mild.u16.bind fun _ => (Mild.bytes _).bind fun _ => (Mild.split _ _).bind fun _ => .pure _).bind fun _ => .pure _) (other h (by omega) (by omega) (by omega) (by omega))
  · next h => exact mild ((Mild.u64.bind fun _ => .pure _).bind fun _ => .pure _) (other h (by omega) (by omega) (by omega) (by omega))
  · next _ _ _ _ _ _ _ h8 h9 h10 _ _ _ _ h16 _ _ _ _ _ => exact mild (Mild.rest.bind fun _ => .pure _) (other rfl h8 h9 h10 h16)

end WErr
end Perf
