import Verif.Spec.CodeLayout
import Verif.Spec.Piped
import Verif.Proof.SoundBody
/-!
# What parsers over a reader accept, exactly

`PEnc cfg s val enc C`: in every state, `s` yields a value if and only if the input starts with an encoding `enc v` for which `C v` holds of what
follows; the value is then `val v`. Both directions are shown at once, parser by parser.
-/
namespace Perf
open ParserM
variable {α α' T V W : Type} {cfg : ParseConfig} {o : Order}

/-- See the top of the file. The input is the body of a record. -/
def PEnc (cfg : ParseConfig) (s : Piped α) (val : V → α) (enc : V → List Byte) (C : V → List Byte → Prop) : Prop :=
  ∀ f : Flat, f.cfg = cfg → f.s.fin.kind = .eof → f.s.bytes.length < 65536 → ∀ a g,
    s f = .ok (a, g) ↔ ∃ v tl, f.s.bytes = enc v ++ tl ∧ g = f.adv (enc v).length ∧ a = val v ∧ C v tl

theorem Piped.bind_eq {s : Piped α} {k : α → Piped α'} {f : Flat} : (s >>= k) f = match s f with
    | .error e => .error e
    | .ok (a, f') => k a f' := rfl

theorem Piped.bind_assoc {α'' : Type} (s : Piped α) (k : α → Piped α') (k' : α' → Piped α'') : (s >>= k) >>= k' = s >>= fun a => k a >>= k' := by
  funext f
  simp only [Piped.bind_eq]
  rcases s f with e | ⟨a, g⟩ <;> rfl

theorem Flat.adv_append {f : Flat} {x tl : List Byte} (h : f.s.bytes = x ++ tl) : (f.adv x.length).s.bytes = tl := by
  rw [Flat.adv_bytes, h, List.drop_left]

namespace PEnc

/-- The same set of values and encodings, described differently. -/
theorem re {s : Piped α} {val : V → α} {enc : V → List Byte} {C : V → List Byte → Prop} {val' : W → α} {enc' : W → List Byte}
    {C' : W → List Byte → Prop} (h : PEnc cfg s val enc C)
    (h1 : ∀ v tl, (enc v ++ tl).length < 65536 → C v tl → ∃ w, val v = val' w ∧ enc v = enc' w ∧ C' w tl)
    (h2 : ∀ w tl, (enc' w ++ tl).length < 65536 → C' w tl → ∃ v, val v = val' w ∧ enc v = enc' w ∧ C v tl) : PEnc cfg s val' enc' C' := by
  intro f hf he hl a g
  rw [h f hf he hl a g]
  constructor
  · rintro ⟨v, tl, e1, e2, e3, e4⟩
    obtain ⟨w, w1, w2, w3⟩ := h1 v tl (by rw [← e1]; exact hl) e4
    exact ⟨w, tl, by rw [e1, w2], by rw [e2, w2], by rw [e3, w1], w3⟩
  · rintro ⟨w, tl, e1, e2, e3, e4⟩
    obtain ⟨v, w1, w2, w3⟩ := h2 w tl (by rw [← e1]; exact hl) e4
    exact ⟨v, tl, by rw [e1, w2], by rw [e2, w2], by rw [e3, w1], w3⟩

theorem pure (a : α) : PEnc cfg (Pure.pure a : Piped α) (fun _ : Unit => a) (fun _ => []) (fun _ _ => True) := by
  intro f _ _ _ b g
  constructor
  · intro h; cases h; exact ⟨(), f.s.bytes, rfl, by simp, rfl, trivial⟩
  · rintro ⟨_, _, _, rfl, rfl, _⟩
    show Except.ok (_, _) = _
    simp

/-- One parser after the other; the second need only be described for values of the first that occur. -/
theorem bindC {s : Piped α} {k : α → Piped α'} {val : V → α} {enc : V → List Byte} {C : V → List Byte → Prop} {val' : V → W → α'}
    {enc' : V → W → List Byte} {C' : V → W → List Byte → Prop} (h : PEnc cfg s val enc C)
    (hk : ∀ v t, C v t → PEnc cfg (k (val v)) (val' v) (enc' v) (C' v)) :
    PEnc cfg (s >>= k) (fun x : V × W => val' x.1 x.2) (fun x => enc x.1 ++ enc' x.1 x.2)
      (fun x tl => C x.1 (enc' x.1 x.2 ++ tl) ∧ C' x.1 x.2 tl) := by
  intro f hf he hl b g
  rw [Piped.bind_eq]
  constructor
  · intro hr
    rcases hs : s f with e | ⟨a, f1⟩ <;> rw [hs] at hr
    · cases hr
    · obtain ⟨v, t1, e1, e2, e3, e4⟩ := (h f hf he hl a f1).1 hs
      subst e2 e3
      have hb := Flat.adv_append e1
      obtain ⟨w, tl, d1, d2, d3, d4⟩ := (hk v _ e4 (f.adv (enc v).length) hf he (by rw [hb]; rw [e1, List.length_append] at hl; omega) b g).1 hr
      rw [hb] at d1
      subst d1
      exact ⟨(v, w), tl, by rw [e1, List.append_assoc], by rw [d2, Flat.adv_adv, List.length_append], d3, e4, d4⟩
  · rintro ⟨⟨v, w⟩, tl, e1, e2, e3, e4, e5⟩
    dsimp only at e1 e2 e3 e4 e5
    rw [List.append_assoc] at e1
    have hb := Flat.adv_append e1
    have hs : s f = .ok (val v, f.adv (enc v).length) := (h f hf he hl _ _).2 ⟨v, _, e1, rfl, rfl, e4⟩
    rw [hs]
    exact (hk v _ e4 (f.adv (enc v).length) hf he (by rw [hb]; rw [e1, List.length_append] at hl; omega) b g).2
      ⟨w, tl, hb, by rw [e2, Flat.adv_adv, List.length_append], e3, e5⟩

theorem bind {s : Piped α} {k : α → Piped α'} {val : V → α} {enc : V → List Byte} {C : V → List Byte → Prop} {val' : V → W → α'}
    {enc' : V → W → List Byte} {C' : V → W → List Byte → Prop} (h : PEnc cfg s val enc C)
    (hk : ∀ v, PEnc cfg (k (val v)) (val' v) (enc' v) (C' v)) :
    PEnc cfg (s >>= k) (fun x : V × W => val' x.1 x.2) (fun x => enc x.1 ++ enc' x.1 x.2)
      (fun x tl => C x.1 (enc' x.1 x.2 ++ tl) ∧ C' x.1 x.2 tl) := h.bindC fun v _ _ => hk v

/-- A parser, and then a value made of its result. -/
theorem map {s : Piped α} {val : V → α} {enc : V → List Byte} {C : V → List Byte → Prop} (h : PEnc cfg s val enc C) (k : α → α') :
    PEnc cfg (s >>= fun a => Pure.pure (k a)) (fun v => k (val v)) enc C := by
  refine (h.bind fun v => PEnc.pure (k (val v))).re ?_ ?_
  · rintro ⟨v, _⟩ tl _ h; exact ⟨v, rfl, by simp, by simpa using h⟩
  · rintro v tl _ h; exact ⟨(v, ()), rfl, by simp, by simpa using h⟩

theorem config {k : ParseConfig → Piped α} {val : V → α} {enc : V → List Byte} {C : V → List Byte → Prop} (h : PEnc cfg (k cfg) val enc C) :
    PEnc cfg ((ParserM.config : Piped ParseConfig) >>= k) val enc C := by
  intro f hf he hl a g
  have : ((ParserM.config : Piped ParseConfig) >>= k) f = k f.cfg f := rfl
  rw [this, hf]
  exact h f hf he hl a g

theorem fail {e : ParseError} {val : V → α} {enc : V → List Byte} {C : V → List Byte → Prop} (h : ∀ v tl, ¬ C v tl) :
    PEnc cfg (ParserM.fail e : Piped α) val enc C := by
  intro f _ _ _ a g
  constructor
  · intro h; cases h
  · rintro ⟨v, tl, _, _, _, h'⟩; exact absurd h' (h v tl)

theorem ite {c : Prop} [Decidable c] {s t : Piped α} {val : V → α} {enc : V → List Byte} {C : V → List Byte → Prop} (h : c → PEnc cfg s val enc C)
    (h' : ¬ c → PEnc cfg t val enc C) : PEnc cfg (if c then s else t) val enc C := by
  split
  · exact h ‹_›
  · exact h' ‹_›

/-! ## Primitives -/

theorem take (n : Nat) : PEnc cfg (Piped.take n) id id fun v _ => v.length = n := by
  intro f _ _ _ a g
  unfold Piped.take
  by_cases h : n ≤ f.s.bytes.length
  · rw [if_pos h]
    have hl : (f.s.bytes.take n).length = n := by rw [List.length_take]; omega
    constructor
    · intro hr
      cases hr
      exact ⟨_, f.s.bytes.drop n, (List.take_append_drop n _).symm, by show _ = f.adv (f.s.bytes.take n).length; rw [hl], rfl, hl⟩
    · rintro ⟨v, tl, e1, e2, e3, rfl⟩
      dsimp only [id] at e1 e2 e3
      rw [e1, List.take_left, e2, e3]
  · rw [if_neg h]
    constructor
    · intro hr; cases hr
    · rintro ⟨v, tl, e1, e2, e3, rfl⟩
      rw [e1] at h
      exact absurd (by simp) h

theorem array (n : Nat) : PEnc cfg (ParserM.array n : Piped (List Byte)) id id fun v tl => v.length = n ∧ (v = [] → tl ≠ []) := by
  intro f hf he hl a g
  show Piped.array n f = _ ↔ _
  unfold Piped.array
  by_cases h : f.s.bytes = []
  · rw [if_pos h]
    constructor
    · intro hr; cases hr
    · rintro ⟨v, tl, e1, _, _, _, e4⟩
      rw [h] at e1
      have := List.append_eq_nil_iff.1 e1.symm
      exact absurd this.2 (e4 this.1)
  · rw [if_neg h, take n f hf he hl a g]
    constructor
    · rintro ⟨v, tl, e1, e2, e3, e4⟩
      refine ⟨v, tl, e1, e2, e3, e4, fun hv ht => h ?_⟩
      rw [e1, hv, ht]; rfl
    · rintro ⟨v, tl, e1, e2, e3, e4, _⟩
      exact ⟨v, tl, e1, e2, e3, e4⟩

theorem bytes (n : Nat) : PEnc cfg (ParserM.bytes n : Piped (Cow Byte)) Cow.owned id fun v tl => v.length = n ∧ (v = [] → tl ≠ []) :=
  (array n).map Cow.owned

theorem u8 : PEnc cfg (parseU8 : Piped U8) id (fun x => [x]) fun _ _ => True := by
  refine ((array (cfg := cfg) 1).map (fromLE 8)).re ?_ ?_
  · rintro v tl _ ⟨h, _⟩
    match v, h with
    | [b], _ => exact ⟨b, by simp [fromLE, leNat], rfl, trivial⟩
  · rintro b tl _ _
    exact ⟨[b], by simp [fromLE, leNat], rfl, rfl, by simp⟩

theorem uint {n w : Nat} (hn : n ≠ 0) {conv : ParseConfig → List Byte → BitVec w} {e : BitVec w → List Byte} (hconv : ∀ x, conv cfg (e x) = x)
    (hlen : ∀ x, (e x).length = n) (hsurj : ∀ bs : List Byte, bs.length = n → ∃ x, bs = e x) :
    PEnc cfg ((ParserM.array n : Piped (List Byte)) >>= fun a => (ParserM.config : Piped ParseConfig) >>= fun c => Pure.pure (conv c a)) id e
      fun _ _ => True := by
  refine ((array (cfg := cfg) n).bind fun v => PEnc.config (PEnc.pure (conv cfg v))).re ?_ ?_
  · rintro ⟨v, _⟩ tl _ ⟨⟨h, _⟩, _⟩
    obtain ⟨x, rfl⟩ := hsurj v h
    exact ⟨x, hconv x, by simp, trivial⟩
  · rintro x tl _ _
    refine ⟨(e x, ()), hconv x, by simp, ⟨hlen x, fun h => ?_⟩, trivial⟩
    have h : e x = [] := h
    have := hlen x
    rw [h] at this
    exact absurd this.symm hn

theorem u16 (hs : Src cfg o) : PEnc cfg (parseU16 : Piped U16) id (e16 o) fun _ _ => True :=
  uint (conv := fun c => c.endian.conv16) (by decide) hs.conv16 (e16_length o) fun bs h => enc_surj o 2 bs h
theorem u32 (hs : Src cfg o) : PEnc cfg (parseU32 : Piped U32) id (e32 o) fun _ _ => True :=
  uint (conv := fun c => c.endian.conv32) (by decide) hs.conv32 (e32_length o) fun bs h => enc_surj o 4 bs h
theorem u64 (hs : Src cfg o) : PEnc cfg (parseU64 : Piped U64) id (e64 o) fun _ _ => True :=
  uint (conv := fun c => c.endian.conv64) (by decide) hs.conv64 (e64_length o) fun bs h => enc_surj o 8 bs h

/-- An optional part; if it is not there, any value will do for it. -/
theorem parseIf {s : Piped α} {val : V → α} {enc : V → List Byte} {C : V → List Byte → Prop} (dflt : V) {b : Bool} (c : Bool) (hbc : b = c)
    (h : c = true → PEnc cfg s val enc C) :
    PEnc cfg (Perf.parseIf b s) (fun v => optv c (val v)) (fun v => opt c (enc v)) fun v tl => c = true → C v tl := by
  subst hbc
  cases b with
  | true => exact ((h rfl).map some).re (fun v tl _ h => ⟨v, rfl, rfl, fun _ => h⟩) fun v tl _ h => ⟨v, rfl, rfl, h rfl⟩
  | false =>
    exact (PEnc.pure (α := Option α) none).re (fun v tl _ h => ⟨dflt, rfl, rfl, nofun⟩) fun v tl _ h => ⟨(), rfl, rfl, trivial⟩

theorem if64 (hs : Src cfg o) {b : Bool} (c : Bool) (hbc : b = c) :
    PEnc cfg (Perf.parseIf b (parseU64 : Piped U64)) (fun v => optv c v) (fun v => opt c (e64 o v)) fun _ _ => c = true → True :=
  parseIf (val := id) 0#64 c hbc fun _ => u64 hs
theorem if32 (hs : Src cfg o) {b : Bool} (c : Bool) (hbc : b = c) :
    PEnc cfg (Perf.parseIf b (parseU32 : Piped U32)) (fun v => optv c v) (fun v => opt c (e32 o v)) fun _ _ => c = true → True :=
  parseIf (val := id) 0#32 c hbc fun _ => u32 hs

theorem rest : PEnc cfg (ParserM.rest : Piped (Cow Byte)) Cow.owned id fun v tl => tl = [] ∧ v ≠ [] := by
  intro f hf he hl a g
  show Piped.rest f = _ ↔ _
  unfold Piped.rest
  by_cases h : f.s.bytes = []
  · rw [if_pos h]
    constructor
    · intro hr; cases hr
    · rintro ⟨v, tl, e1, _, _, _, e4⟩
      rw [h] at e1
      exact absurd (List.append_eq_nil_iff.1 e1.symm).1 e4
  · rw [if_neg h, if_pos he]
    constructor
    · intro hr
      cases hr
      exact ⟨_, [], by simp, rfl, rfl, rfl, h⟩
    · rintro ⟨v, tl, e1, e2, e3, rfl, _⟩
      rw [List.append_nil] at e1
      dsimp only [id] at e1 e2 e3
      rw [e1, e2, e3]

theorem name : PEnc cfg (ParserM.restTrimNul : Piped (Cow Byte)) (fun n : KName => Cow.owned n.text) KName.enc fun n tl => tl = [] ∧ n.Ok := by
  refine ((rest (cfg := cfg)).map fun c => c.truncate (trimNul c.data).length).re ?_ ?_
  · rintro v tl _ ⟨rfl, h0⟩
    obtain ⟨h1, n, h2⟩ := trimNul_inv v
    have he : KName.enc ⟨trimNul v, n⟩ = v := h2.symm
    refine ⟨⟨trimNul v, n⟩, ?_, he.symm, rfl, h1, by rw [he]; exact h0⟩
    show Cow.owned (v.take (trimNul v).length) = .owned (trimNul v)
    rw [h2] 
    congr 1
    have : trimNul (trimNul v ++ List.replicate n 0#8) = trimNul v := by rw [← h2]
    rw [this, List.take_left]
  · rintro n tl _ ⟨rfl, h1, h2⟩
    refine ⟨n.enc, ?_, rfl, rfl, h2⟩
    show Cow.owned (n.enc.take (trimNul n.enc).length) = .owned n.text
    have : trimNul n.enc = n.text := trimNul_pad n.text n.pad h1
    rw [this]
    unfold KName.enc
    rw [List.take_left]

theorem repeated {item : Piped T} {en : T → List Byte} (hi : PEnc cfg item id en fun _ _ => True) :
    ∀ n, PEnc cfg (Piped.repeated item n) id (fun xs => xs.flatMap en) fun xs _ => xs.length = n
  | 0 => (PEnc.pure (cfg := cfg) ([] : List T)).re (fun _ tl _ _ => ⟨[], rfl, rfl, rfl⟩) fun xs tl _ h => by
      cases List.length_eq_zero_iff.1 h
      exact ⟨(), rfl, rfl, trivial⟩
  | n + 1 => by
    refine (hi.bind fun x => (repeated hi n).map fun xs => x :: xs).re ?_ ?_
    · rintro ⟨x, xs⟩ tl _ ⟨_, h⟩
      exact ⟨x :: xs, rfl, rfl, by simpa using h⟩
    · rintro (_ | ⟨x, xs⟩) tl _ h
      · cases h
      · exact ⟨(x, xs), rfl, rfl, trivial, by simpa using h⟩

theorem slice {e : Elem T} {item : Piped T} {en : T → List Byte} (hsz : e.size ≠ 0) (hen : ∀ x, (en x).length = e.size)
    (hi : PEnc cfg item id en fun _ _ => True) (n : Nat) :
    PEnc cfg (ParserM.slice e item n : Piped (Cow T)) Cow.owned (fun xs => xs.flatMap en)
      fun xs tl => xs.length = n ∧ (cfg.endian.isNative = true → xs = [] → tl ≠ []) := by
  intro f hf he hl a g
  have hlen : ∀ xs : List T, (xs.flatMap en).length = xs.length * e.size := by
    intro xs
    induction xs with
    | nil => simp
    | cons x xs ih => rw [List.flatMap_cons, List.length_append, ih, hen, List.length_cons, Nat.succ_mul, Nat.add_comm]
  have hc := (repeated hi n).map Cow.owned f hf he hl a g
  show Piped.slice e item n f = _ ↔ _
  unfold Piped.slice
  rw [hf]
  by_cases h1 : cfg.endian.isNative = true ∧ n * e.size ≥ usizeLimit
  · rw [if_pos h1]
    constructor
    · intro hr; cases hr
    · rintro ⟨v, tl, e1, _, _, e4, _⟩
      exfalso
      dsimp only at e1
      have h2 := h1.2
      rw [← e4, ← hlen] at h2
      rw [e1, List.length_append] at hl
      have : (65536 : Nat) ≤ usizeLimit := by decide
      omega
  rw [if_neg h1]
  by_cases h2 : cfg.endian.isNative = true ∧ f.s.bytes = []
  · rw [if_pos h2]
    constructor
    · intro hr; cases hr
    · rintro ⟨v, tl, e1, _, _, e4, e5⟩
      dsimp only at e1
      rw [h2.2] at e1
      have h3 := List.append_eq_nil_iff.1 e1.symm
      refine absurd h3.2 (e5 h2.1 ?_)
      have := hlen v
      rw [h3.1] at this
      have := this.symm
      simp only [List.length_nil, Nat.mul_eq_zero, hsz, or_false] at this
      exact List.length_eq_zero_iff.1 this
  · rw [if_neg h2]
    show (Piped.repeated item n >>= fun xs => Pure.pure (Cow.owned xs)) f = _ ↔ _
    rw [hc]
    constructor
    · rintro ⟨v, tl, e1, e2, e3, e4⟩
      refine ⟨v, tl, e1, e2, e3, e4, fun hn hv ht => h2 ⟨hn, ?_⟩⟩
      rw [e1, hv, ht]; rfl
    · rintro ⟨v, tl, e1, e2, e3, e4, _⟩
      exact ⟨v, tl, e1, e2, e3, e4⟩

theorem padded {s : Piped α} {val : V → α} {enc : V → List Byte} {C : V → List Byte → Prop} (h : PEnc cfg s val enc C) {n : Nat} (hn : n ≠ 0) :
    PEnc cfg (ParserM.padded n s : Piped α) (fun x : V × List Byte => val x.1) (fun x => enc x.1 ++ x.2)
      fun x tl => C x.1 (x.2 ++ tl) ∧ x.2.length < n ∧ ((enc x.1).length + x.2.length) % n = 0 := by
  intro f hf he hl a g
  show Piped.padded n s f = _ ↔ _
  unfold Piped.padded
  rw [if_neg hn]
  constructor
  · intro hr
    rcases hs : s f with e | ⟨b, f1⟩ <;> rw [hs] at hr
    · cases hr
    · obtain ⟨v, t1, e1, e2, e3, e4⟩ := (h f hf he hl b f1).1 hs
      subst e2 e3
      have hb := Flat.adv_append e1
      have hoff : (f.adv (enc v).length).off - f.off = (enc v).length := by show f.off + _ - f.off = _; omega
      simp only [hoff] at hr
      by_cases h0 : (enc v).length % n = 0
      · rw [if_pos h0] at hr
        cases hr
        exact ⟨(v, []), t1, by rw [e1]; simp, by simp, rfl, by simpa using e4, by simp; omega, by simpa using h0⟩
      · rw [if_neg h0] at hr
        rcases ht : Piped.take (n - (enc v).length % n) (f.adv (enc v).length) with e | ⟨pad, g'⟩ <;> rw [ht] at hr
        · cases hr
        · cases hr
          obtain ⟨w, tl, d1, d2, d3, d4⟩ := (take (cfg := cfg) _ (f.adv (enc v).length) hf he
            (by rw [hb]; rw [e1, List.length_append] at hl; omega) pad g).1 ht
          dsimp only [id] at d1 d2
          rw [hb] at d1
          subst d1
          have hlt : (enc v).length % n < n := Nat.mod_lt _ (by omega)
          refine ⟨(v, w), tl, by rw [e1, List.append_assoc], by rw [d2, Flat.adv_adv, List.length_append], rfl, e4, ?_, ?_⟩
          · show w.length < n
            rw [d4]; omega
          · show ((enc v).length + w.length) % n = 0
            rw [d4]
            have := Nat.div_add_mod (enc v).length n
            rw [show (enc v).length + (n - (enc v).length % n) = n * ((enc v).length / n) + n by omega, ← Nat.mul_succ, Nat.mul_mod_right]
  · rintro ⟨⟨v, pad⟩, tl, e1, e2, e3, e4, e5, e6⟩
    dsimp only at e1 e2 e3 e4 e5 e6
    rw [List.append_assoc] at e1
    have hb := Flat.adv_append e1
    have hs : s f = .ok (val v, f.adv (enc v).length) := (h f hf he hl _ _).2 ⟨v, _, e1, rfl, rfl, e4⟩
    have hoff : (f.adv (enc v).length).off - f.off = (enc v).length := by show f.off + _ - f.off = _; omega
    rw [hs]
    simp only [hoff]
    have hlt : (enc v).length % n < n := Nat.mod_lt _ (by omega)
    have hmod : ((enc v).length % n + pad.length) % n = 0 := by rw [Nat.mod_add_mod]; exact e6
    by_cases h0 : (enc v).length % n = 0
    · rw [if_pos h0]
      rw [h0, Nat.zero_add, Nat.mod_eq_of_lt e5] at hmod
      cases List.length_eq_zero_iff.1 hmod
      rw [e2, e3]; simp
    · rw [if_neg h0]
      have hp : pad.length = n - (enc v).length % n := by
        have h2 : (enc v).length % n + pad.length < 2 * n := by omega
        by_cases h3 : (enc v).length % n + pad.length < n
        · rw [Nat.mod_eq_of_lt h3] at hmod; omega
        · rw [Nat.mod_eq_sub_mod (by omega), Nat.mod_eq_of_lt (by omega)] at hmod; omega
      have ht := (take (cfg := cfg) (n - (enc v).length % n) (f.adv (enc v).length) hf he
        (by rw [hb]; rw [e1, List.length_append] at hl; omega) pad _).2 ⟨pad, tl, hb, rfl, rfl, hp⟩
      rw [ht, e2, e3]
      simp only [id, Flat.adv_adv, List.length_append]

end PEnc
end Perf
