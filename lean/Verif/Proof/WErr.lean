import Verif.Proof.WExactBody
import Verif.Spec.Wrong
/-!
# With what errors parsers over pieces of memory end, exactly

`WErr cfg s D`: `s` ends with an error `e` other than `Eof` at offset `k` if and only if `D e k` holds of the input.
-/
namespace Perf
open ParserM
variable {w : Nat → Nat → Option Nat} {α α' T V W : Type} {cfg : ParseConfig} {o : Order}

/-- See the top of the file. The input is the body of a record. -/
def WErr (cfg : ParseConfig) (s : Woven w α) (D : ParseError → Nat → List Byte → Prop) : Prop :=
  ∀ (f : Flat), f.cfg = cfg → f.s.bytes.length < 65536 → ∀ e, e ≠ .eof → (s f = .error (.err e) ↔ D e f.off f.s.bytes)

/-- The only error is `Eof`. -/
abbrev NoComplaint (cfg : ParseConfig) (s : Woven w α) : Prop := WErr cfg s fun _ _ _ => False

namespace WErr

theorem re {s : Woven w α} {D D' : ParseError → Nat → List Byte → Prop} (h : WErr cfg s D) (h' : ∀ e k bs, bs.length < 65536 → (D e k bs ↔ D' e k bs)) :
    WErr cfg s D' := fun f hf hl e he => (h f hf hl e he).trans (h' e f.off f.s.bytes hl)

theorem quiet {s : Woven w α} (h : ∀ f e, s f = .error (.err e) → e = .eof) : NoComplaint cfg s := fun f _ _ e he =>
  ⟨fun h1 => he (h f e h1), False.elim⟩

theorem pure (a : α) : NoComplaint cfg (Pure.pure a : Woven w α) := quiet fun f e h => by cases h

theorem fail (e : ParseError) : WErr cfg (ParserM.fail e : Woven w α) fun x _ _ => x = e := fun f _ _ x _ => by
  constructor
  · intro h
    have h : (Except.error (.err e) : Except Fault (α × Flat)) = .error (.err x) := h
    cases h; rfl
  · rintro rfl; rfl

theorem bind {s : Woven w α} {k : α → Woven w α'} {D : ParseError → Nat → List Byte → Prop} {val : V → α} {enc : V → List Byte}
    {C : Nat → V → List Byte → Prop} {D' : V → ParseError → Nat → List Byte → Prop} (h : WErr cfg s D) (hs : WEnc cfg s val enc C)
    (hk : ∀ j v tl, C j v tl → WErr cfg (k (val v)) (D' v)) :
    WErr cfg (s >>= k) fun e j bs => D e j bs ∨ ∃ v tl, bs = enc v ++ tl ∧ C j v tl ∧ D' v e (j + (enc v).length) tl := by
  intro f hf hl e he
  dsimp only
  rw [Woven.bind_eq, ← h f hf hl e he]
  constructor
  · intro h1
    rcases hm : s f with x | ⟨a, g⟩ <;> rw [hm] at h1
    · exact .inl (by cases h1; rfl)
    · obtain ⟨v, tl, e1, rfl, rfl, e4⟩ := (hs f hf hl a g).1 hm
      have hb := Flat.adv_append e1
      refine .inr ⟨v, tl, e1, e4, ?_⟩
      have := (hk _ v tl e4 (f.adv (enc v).length) hf (by rw [hb]; rw [e1, List.length_append] at hl; omega) e he).1 h1
      rw [hb] at this
      exact this
  · rintro (h1 | ⟨v, tl, e1, e4, h1⟩)
    · rw [h1]
    · have hm := (hs f hf hl _ _).2 ⟨v, tl, e1, rfl, rfl, e4⟩
      have hb := Flat.adv_append e1
      rw [hm]
      refine (hk _ v tl e4 (f.adv (enc v).length) hf (by rw [hb]; rw [e1, List.length_append] at hl; omega) e he).2 ?_
      rw [hb]
      exact h1

/-- After a parser with no error but `Eof` that takes any value. -/
theorem after {s : Woven w α} {k : α → Woven w α'} {val : V → α} {enc : V → List Byte} {C : Nat → V → List Byte → Prop}
    {D : V → ParseError → List Byte → Prop} (h : NoComplaint cfg s) (hs : WEnc cfg s val enc C) (hC : ∀ j v tl, C j v tl)
    (hk : ∀ v, WErr cfg (k (val v)) fun e _ => D v e) :
    WErr cfg (s >>= k) fun e _ bs => ∃ v tl, bs = enc v ++ tl ∧ D v e tl :=
  (h.bind hs fun _ v _ _ => hk v).re fun _ _ _ _ =>
    ⟨fun h => h.elim False.elim fun ⟨v, tl, h1, _, h2⟩ => ⟨v, tl, h1, h2⟩, fun ⟨v, tl, h1, h2⟩ => .inr ⟨v, tl, h1, hC _ _ _, h2⟩⟩

/-- A parser, and then a value made of its result. -/
theorem map {s : Woven w α} {D : ParseError → Nat → List Byte → Prop} (h : WErr cfg s D) (k : α → α') :
    WErr cfg (s >>= fun a => Pure.pure (k a)) D := by
  intro f hf hl e he
  rw [← h f hf hl e he, Woven.bind_eq]
  rcases s f with x | ⟨a, g⟩
  · exact ⟨fun h => (by cases h; rfl), fun h => (by cases h; rfl)⟩
  · exact ⟨fun h => (by cases h), fun h => (by cases h)⟩

theorem config {k : ParseConfig → Woven w α} {D : ParseError → Nat → List Byte → Prop} (h : WErr cfg (k cfg) D) :
    WErr cfg ((ParserM.config : Woven w ParseConfig) >>= k) D := by
  intro f hf hl e he
  have : ((ParserM.config : Woven w ParseConfig) >>= k) f = k f.cfg f := rfl
  rw [this, hf]
  exact h f hf hl e he

theorem ite {c : Prop} [Decidable c] {s t : Woven w α} {D D' : ParseError → Nat → List Byte → Prop} (h : c → WErr cfg s D)
    (h' : ¬ c → WErr cfg t D') : WErr cfg (if c then s else t) fun e k bs => c ∧ D e k bs ∨ ¬ c ∧ D' e k bs := by
  by_cases hc : c
  · rw [if_pos hc]
    exact (h hc).re fun e k bs _ => ⟨fun h => .inl ⟨hc, h⟩, fun h => h.elim (·.2) fun h => absurd hc h.1⟩
  · rw [if_neg hc]
    exact (h' hc).re fun e k bs _ => ⟨fun h => .inr ⟨hc, h⟩, fun h => h.elim (fun h => absurd h.1 hc) (·.2)⟩

/-! ## Primitives -/

theorem take (n : Nat) : NoComplaint cfg (Woven.take n : Woven w (List Byte)) := quiet fun f e h => by
  unfold Woven.take at h
  split at h <;> cases h
  rfl

theorem array (n : Nat) : NoComplaint cfg (ParserM.array n : Woven w (List Byte)) := quiet fun f e h => by
  have h : Woven.array n f = _ := h
  unfold Woven.array at h
  split at h
  · cases h; rfl
  · unfold Woven.take at h
    split at h <;> cases h
    rfl

theorem bytes (n : Nat) : NoComplaint cfg (ParserM.bytes n : Woven w (List Byte)) := array n

theorem rest : NoComplaint cfg (ParserM.rest : Woven w (List Byte)) := quiet fun f e h => by
  have h : Woven.rest f = _ := h
  unfold Woven.rest at h
  split at h <;> cases h
  rfl

theorem name : NoComplaint cfg (ParserM.restTrimNul : Woven w (List Byte)) := (rest (cfg := cfg)).map fun c => c.take (trimNul c).length

theorem u8 : NoComplaint cfg (parseU8 : Woven w U8) := (array (cfg := cfg) 1).map (fromLE 8)

theorem uint {n b : Nat} (conv : ParseConfig → List Byte → BitVec b) :
    NoComplaint cfg ((ParserM.array n : Woven w (List Byte)) >>= fun a => (ParserM.config : Woven w ParseConfig) >>= fun c => Pure.pure (conv c a)) := by
  refine ((array (cfg := cfg) n).bind (WEnc.array n) fun _ v _ _ => WErr.config (k := fun c => Pure.pure (conv c v)) (WErr.pure _)).re fun e k bs _ => ?_
  constructor
  · rintro (h | ⟨_, _, _, _, h⟩) <;> exact h
  · exact False.elim

theorem u16 : NoComplaint cfg (parseU16 : Woven w U16) := uint fun c => c.endian.conv16
theorem u32 : NoComplaint cfg (parseU32 : Woven w U32) := uint fun c => c.endian.conv32
theorem u64 : NoComplaint cfg (parseU64 : Woven w U64) := uint fun c => c.endian.conv64

theorem parseIf {s : Woven w α} {D : ParseError → Nat → List Byte → Prop} {b : Bool} (c : Bool) (hbc : b = c) (h : c = true → WErr cfg s D) :
    WErr cfg (Perf.parseIf b s) fun e k bs => c = true ∧ D e k bs := by
  subst hbc
  cases b with
  | true => exact ((h rfl).map some).re fun _ _ _ _ => ⟨fun h => ⟨rfl, h⟩, fun h => h.2⟩
  | false => exact (WErr.pure (α := Option α) none).re fun _ _ _ _ => ⟨False.elim, fun h => by cases h.1⟩

theorem parseIfQ {s : Woven w α} {b : Bool} (h : NoComplaint cfg s) : NoComplaint cfg (Perf.parseIf b s) :=
  (parseIf b rfl fun _ => h).re fun _ _ _ _ => ⟨fun h => h.2, False.elim⟩

/-- One parser and then another, neither with an error but `Eof`. -/
theorem bindQ {s : Woven w α} {k : α → Woven w α'} {val : V → α} {enc : V → List Byte} {C : Nat → V → List Byte → Prop} (h : NoComplaint cfg s)
    (hs : WEnc cfg s val enc C) (hk : ∀ v, NoComplaint cfg (k (val v))) : NoComplaint cfg (s >>= k) :=
  (h.bind hs fun _ v _ _ => hk v).re fun _ _ _ _ => ⟨fun h => h.elim id fun ⟨_, _, _, _, h⟩ => h, False.elim⟩

theorem repeated {item : Woven w T} {en : T → List Byte} (hi : WEnc cfg item id en fun _ _ _ => True) (hq : NoComplaint cfg item) :
    ∀ n, NoComplaint cfg (Woven.repeated item n)
  | 0 => WErr.pure _
  | n + 1 => hq.bindQ hi fun x => (repeated hi hq n).map fun xs => x :: xs

theorem slice {e : Elem T} {item : Woven w T} {en : T → List Byte} (hi : WEnc cfg item id en fun _ _ _ => True) (hq : NoComplaint cfg item) (n : Nat) :
    WErr cfg (ParserM.slice e item n : Woven w (List T)) fun x _ _ => cfg.endian.isNative = true ∧ 2 ^ 64 ≤ n * e.size ∧ x = .tooManyBytes := by
  intro f hf hl x hx
  have hr := repeated hi hq n
  have hr0 := (hr f hf hl x hx).1
  have hrn := (hr (f.adv (n * e.size)) hf (by rw [Flat.adv_bytes, List.length_drop]; omega) x hx).1
  show Woven.slice e item n f = _ ↔ _
  unfold Woven.slice
  rw [hf]
  by_cases hnat : cfg.endian.isNative = true
  case neg => rw [if_neg hnat]; exact ⟨fun h => (hr0 h).elim, fun h => absurd h.1 hnat⟩
  rw [if_pos hnat]
  by_cases h1 : n * e.size ≥ usizeLimit
  · rw [if_pos h1]
    constructor
    · intro h; cases h; exact ⟨hnat, h1, rfl⟩
    · rintro ⟨_, _, rfl⟩; rfl
  rw [if_neg h1]
  refine ⟨fun h => ?_, fun h => absurd h.2.1 h1⟩
  exfalso
  by_cases h2 : f.s.bytes = []
  · rw [if_pos h2] at h; cases h; exact hx rfl
  rw [if_neg h2] at h
  by_cases h3 : n * e.size ≤ f.s.bytes.length
  case neg => rw [if_neg h3] at h; exact hr0 h
  rw [if_pos h3] at h
  rcases hw : w f.off (n * e.size) with _ | ad <;> rw [hw] at h
  · exact hr0 h
  · dsimp only at h
    split at h
    · cases h
    · exact hrn h

theorem padded {s : Woven w α} (h : NoComplaint cfg s) (n : Nat) :
    NoComplaint cfg (ParserM.padded n s : Woven w α) := by
  intro f hf hl e he
  refine ⟨fun h1 => ?_, False.elim⟩
  have h1 : Woven.padded n s f = _ := h1
  unfold Woven.padded at h1
  split at h1
  · cases h1
  rcases hm : s f with x | ⟨a, g⟩ <;> rw [hm] at h1
  · exact (h f hf hl e he).1 (hm.trans (by cases h1; rfl))
  · dsimp only at h1
    split at h1
    · cases h1
    · rcases ht : Woven.take (w := w) (n - (g.off - f.off) % n) g with x | ⟨pad, g'⟩ <;> rw [ht] at h1
      · unfold Woven.take at ht
        split at ht
        · cases ht
        · cases ht; cases h1; exact he rfl
      · cases h1

end WErr
end Perf
