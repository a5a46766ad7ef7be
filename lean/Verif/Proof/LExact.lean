import Verif.Spec.MemoryLayout
import Verif.Proof.Inplace
import Verif.Proof.PExact
/-!
# What parsers over memory accept, exactly

`LEnc cfg s val enc C`: at every address `k`, `s` yields a value if and only if the input starts with an encoding `enc v` for which `C k v` holds
of what follows; the value is then `val v`. Only `k` modulo 8 counts.
-/
namespace Perf
open ParserM
variable {α α' T V W : Type} {cfg : ParseConfig} {o : Order}

/-- See the top of the file. The input is the body of a record. -/
def LEnc (cfg : ParseConfig) (s : Inplace α) (val : V → α) (enc : V → List Byte) (C : Nat → V → List Byte → Prop) : Prop :=
  ∀ (f : Flat) (k k' : Nat), f.cfg = cfg → f.s.al = .at k' → k' % 8 = k % 8 → f.s.bytes.length < 65536 → ∀ a g,
    s f = .ok (a, g) ↔ ∃ v tl, f.s.bytes = enc v ++ tl ∧ g = f.adv (enc v).length ∧ a = val v ∧ C k v tl

theorem Inplace.bind_eq {s : Inplace α} {k : α → Inplace α'} {f : Flat} : (s >>= k) f = match s f with
    | .error e => .error e
    | .ok (a, f') => k a f' := rfl

theorem Inplace.bind_assoc {α'' : Type} (s : Inplace α) (k : α → Inplace α') (k' : α' → Inplace α'') : (s >>= k) >>= k' = s >>= fun a => k a >>= k' := by
  funext f
  simp only [Inplace.bind_eq]
  rcases s f with e | ⟨a, g⟩ <;> rfl

theorem Flat.adv_at {f : Flat} {k : Nat} (h : f.s.al = .at k) (n : Nat) : (f.adv n).s.al = .at (k + n) := by
  rw [Flat.adv_al, h]; rfl

namespace LEnc

/-- The same set of values and encodings, described differently. -/
theorem re {s : Inplace α} {val : V → α} {enc : V → List Byte} {C : Nat → V → List Byte → Prop} {val' : W → α} {enc' : W → List Byte}
    {C' : Nat → W → List Byte → Prop} (h : LEnc cfg s val enc C)
    (h1 : ∀ k v tl, (enc v ++ tl).length < 65536 → C k v tl → ∃ w, val v = val' w ∧ enc v = enc' w ∧ C' k w tl)
    (h2 : ∀ k w tl, (enc' w ++ tl).length < 65536 → C' k w tl → ∃ v, val v = val' w ∧ enc v = enc' w ∧ C k v tl) : LEnc cfg s val' enc' C' := by
  intro f k k' hf ha hk hl a g
  rw [h f k k' hf ha hk hl a g]
  constructor
  · rintro ⟨v, tl, e1, e2, e3, e4⟩
    obtain ⟨w, w1, w2, w3⟩ := h1 k v tl (by rw [← e1]; exact hl) e4
    exact ⟨w, tl, by rw [e1, w2], by rw [e2, w2], by rw [e3, w1], w3⟩
  · rintro ⟨w, tl, e1, e2, e3, e4⟩
    obtain ⟨v, w1, w2, w3⟩ := h2 k w tl (by rw [← e1]; exact hl) e4
    exact ⟨v, tl, by rw [e1, w2], by rw [e2, w2], by rw [e3, w1], w3⟩

theorem pure (a : α) : LEnc cfg (Pure.pure a : Inplace α) (fun _ : Unit => a) (fun _ => []) (fun _ _ _ => True) := by
  intro f _ _ _ _ _ _ b g
  constructor
  · intro h; cases h; exact ⟨(), f.s.bytes, rfl, by simp, rfl, trivial⟩
  · rintro ⟨_, _, _, rfl, rfl, _⟩
    show Except.ok (_, _) = _
    simp

/-- One parser after the other; the second need only be described for values of the first that occur. The first moves the address by `m`,
modulo 8. -/
theorem bindM {s : Inplace α} {k : α → Inplace α'} {val : V → α} {enc : V → List Byte} {C : Nat → V → List Byte → Prop} {val' : V → W → α'}
    {enc' : V → W → List Byte} {C' : V → Nat → W → List Byte → Prop} (m : V → Nat) (h : LEnc cfg s val enc C)
    (hm : ∀ k v t, C k v t → (enc v).length % 8 = m v % 8) (hk : ∀ j v t, C j v t → LEnc cfg (k (val v)) (val' v) (enc' v) (C' v)) :
    LEnc cfg (s >>= k) (fun x : V × W => val' x.1 x.2) (fun x => enc x.1 ++ enc' x.1 x.2)
      (fun j x tl => C j x.1 (enc' x.1 x.2 ++ tl) ∧ C' x.1 (j + m x.1) x.2 tl) := by
  intro f j j' hf ha hj hl b g
  rw [Inplace.bind_eq]
  constructor
  · intro hr
    rcases hs : s f with e | ⟨a, f1⟩ <;> rw [hs] at hr
    · cases hr
    · obtain ⟨v, t1, e1, e2, e3, e4⟩ := (h f j j' hf ha hj hl a f1).1 hs
      subst e2 e3
      have hb := Flat.adv_append e1
      have hmv := hm _ _ _ e4
      obtain ⟨w, tl, d1, d2, d3, d4⟩ := (hk j v _ e4 (f.adv (enc v).length) (j + m v) _ hf (Flat.adv_at ha _) (by omega)
        (by rw [hb]; rw [e1, List.length_append] at hl; omega) b g).1 hr
      rw [hb] at d1
      subst d1
      exact ⟨(v, w), tl, by rw [e1, List.append_assoc], by rw [d2, Flat.adv_adv, List.length_append], d3, e4, d4⟩
  · rintro ⟨⟨v, w⟩, tl, e1, e2, e3, e4, e5⟩
    dsimp only at e1 e2 e3 e4 e5
    rw [List.append_assoc] at e1
    have hb := Flat.adv_append e1
    have hmv := hm _ _ _ e4
    have hs : s f = .ok (val v, f.adv (enc v).length) := (h f j j' hf ha hj hl _ _).2 ⟨v, _, e1, rfl, rfl, e4⟩
    rw [hs]
    exact (hk j v _ e4 (f.adv (enc v).length) (j + m v) _ hf (Flat.adv_at ha _) (by omega)
        (by rw [hb]; rw [e1, List.length_append] at hl; omega) b g).2
      ⟨w, tl, hb, by rw [e2, Flat.adv_adv, List.length_append], e3, e5⟩

theorem bindC {s : Inplace α} {k : α → Inplace α'} {val : V → α} {enc : V → List Byte} {C : Nat → V → List Byte → Prop} {val' : V → W → α'}
    {enc' : V → W → List Byte} {C' : V → Nat → W → List Byte → Prop} (h : LEnc cfg s val enc C)
    (hk : ∀ j v t, C j v t → LEnc cfg (k (val v)) (val' v) (enc' v) (C' v)) :
    LEnc cfg (s >>= k) (fun x : V × W => val' x.1 x.2) (fun x => enc x.1 ++ enc' x.1 x.2)
      (fun j x tl => C j x.1 (enc' x.1 x.2 ++ tl) ∧ C' x.1 (j + (enc x.1).length) x.2 tl) :=
  h.bindM (fun v => (enc v).length) (fun _ _ _ _ => rfl) hk

theorem bind {s : Inplace α} {k : α → Inplace α'} {val : V → α} {enc : V → List Byte} {C : Nat → V → List Byte → Prop} {val' : V → W → α'}
    {enc' : V → W → List Byte} {C' : V → Nat → W → List Byte → Prop} (h : LEnc cfg s val enc C)
    (hk : ∀ v, LEnc cfg (k (val v)) (val' v) (enc' v) (C' v)) :
    LEnc cfg (s >>= k) (fun x : V × W => val' x.1 x.2) (fun x => enc x.1 ++ enc' x.1 x.2)
      (fun j x tl => C j x.1 (enc' x.1 x.2 ++ tl) ∧ C' x.1 (j + (enc x.1).length) x.2 tl) := h.bindC fun _ v _ _ => hk v

/-- The first part is a multiple of 8 bytes long. -/
theorem bind8 {s : Inplace α} {k : α → Inplace α'} {val : V → α} {enc : V → List Byte} {C : Nat → V → List Byte → Prop} {val' : V → W → α'}
    {enc' : V → W → List Byte} {C' : V → Nat → W → List Byte → Prop} (h : LEnc cfg s val enc C)
    (h8 : ∀ k v t, C k v t → (enc v).length % 8 = 0)
    (hk : ∀ v, LEnc cfg (k (val v)) (val' v) (enc' v) (C' v)) :
    LEnc cfg (s >>= k) (fun x : V × W => val' x.1 x.2) (fun x => enc x.1 ++ enc' x.1 x.2)
      (fun j x tl => C j x.1 (enc' x.1 x.2 ++ tl) ∧ C' x.1 j x.2 tl) :=
  h.bindM (fun _ => 0) (fun k v t c => h8 k v t c) fun _ v _ _ => hk v

/-- A parser, and then a value made of its result. -/
theorem map {s : Inplace α} {val : V → α} {enc : V → List Byte} {C : Nat → V → List Byte → Prop} (h : LEnc cfg s val enc C) (k : α → α') :
    LEnc cfg (s >>= fun a => Pure.pure (k a)) (fun v => k (val v)) enc C := by
  refine (h.bind fun v => LEnc.pure (k (val v))).re ?_ ?_
  · rintro j ⟨v, _⟩ tl _ h; exact ⟨v, rfl, by simp, by simpa using h⟩
  · rintro j v tl _ h; exact ⟨(v, ()), rfl, by simp, by simpa using h⟩

theorem config {k : ParseConfig → Inplace α} {val : V → α} {enc : V → List Byte} {C : Nat → V → List Byte → Prop} (h : LEnc cfg (k cfg) val enc C) :
    LEnc cfg ((ParserM.config : Inplace ParseConfig) >>= k) val enc C := by
  intro f j j' hf ha hj hl a g
  have : ((ParserM.config : Inplace ParseConfig) >>= k) f = k f.cfg f := rfl
  rw [this, hf]
  exact h f j j' hf ha hj hl a g

theorem fail {e : ParseError} {val : V → α} {enc : V → List Byte} {C : Nat → V → List Byte → Prop} (h : ∀ k v tl, ¬ C k v tl) :
    LEnc cfg (ParserM.fail e : Inplace α) val enc C := by
  intro f _ _ _ _ _ _ a g
  constructor
  · intro h; cases h
  · rintro ⟨v, tl, _, _, _, h'⟩; exact absurd h' (h _ v tl)

theorem ite {c : Prop} [Decidable c] {s t : Inplace α} {val : V → α} {enc : V → List Byte} {C : Nat → V → List Byte → Prop} (h : c → LEnc cfg s val enc C)
    (h' : ¬ c → LEnc cfg t val enc C) : LEnc cfg (if c then s else t) val enc C := by
  split
  · exact h ‹_›
  · exact h' ‹_›

/-! ## Primitives -/

theorem take (n : Nat) : LEnc cfg (Inplace.take n) id id fun _ v _ => v.length = n := by
  intro f _ _ _ _ _ _ a g
  unfold Inplace.take
  by_cases h : n ≤ f.s.bytes.length
  · rw [if_pos h]
    have hl : (f.s.bytes.take n).length = n := by rw [List.length_take]; omega
    constructor
    · intro hr
      cases hr
      exact ⟨_, f.s.bytes.drop n, (List.take_append_drop n _).symm, by show _ = f.adv (f.s.bytes.take n).length; rw [hl], rfl, hl⟩
    · rintro ⟨v, tl, e1, e2, e3, rfl⟩
      dsimp only [id] at e1 e2 e3
      rw [e1, List.take_left, e2, e3]
  · rw [if_neg h]
    constructor
    · intro hr; cases hr
    · rintro ⟨v, tl, e1, e2, e3, rfl⟩
      rw [e1] at h
      exact absurd (by simp) h

theorem array (n : Nat) : LEnc cfg (ParserM.array n : Inplace (List Byte)) id id fun _ v tl => v.length = n ∧ (v = [] → tl ≠ []) := by
  intro f k k' hf ha hk hl a g
  show Inplace.array n f = _ ↔ _
  unfold Inplace.array
  by_cases h : f.s.bytes = []
  · rw [if_pos h]
    constructor
    · intro hr; cases hr
    · rintro ⟨v, tl, e1, _, _, _, e4⟩
      rw [h] at e1
      have := List.append_eq_nil_iff.1 e1.symm
      exact absurd this.2 (e4 this.1)
  · rw [if_neg h, take n f k k' hf ha hk hl a g]
    constructor
    · rintro ⟨v, tl, e1, e2, e3, e4⟩
      refine ⟨v, tl, e1, e2, e3, e4, fun hv ht => h ?_⟩
      rw [e1, hv, ht]; rfl
    · rintro ⟨v, tl, e1, e2, e3, e4, _⟩
      exact ⟨v, tl, e1, e2, e3, e4⟩

theorem bytes (n : Nat) : LEnc cfg (ParserM.bytes n : Inplace (List Byte)) id id fun _ v tl => v.length = n ∧ (v = [] → tl ≠ []) := array n

theorem u8 : LEnc cfg (parseU8 : Inplace U8) id (fun x => [x]) fun _ _ _ => True := by
  refine ((array (cfg := cfg) 1).map (fromLE 8)).re ?_ ?_
  · rintro _ v tl _ ⟨h, _⟩
    match v, h with
    | [b], _ => exact ⟨b, by simp [fromLE, leNat], rfl, trivial⟩
  · rintro _ b tl _ _
    exact ⟨[b], by simp [fromLE, leNat], rfl, rfl, by simp⟩

theorem uint {n w : Nat} (hn : n ≠ 0) {conv : ParseConfig → List Byte → BitVec w} {e : BitVec w → List Byte} (hconv : ∀ x, conv cfg (e x) = x)
    (hlen : ∀ x, (e x).length = n) (hsurj : ∀ bs : List Byte, bs.length = n → ∃ x, bs = e x) :
    LEnc cfg ((ParserM.array n : Inplace (List Byte)) >>= fun a => (ParserM.config : Inplace ParseConfig) >>= fun c => Pure.pure (conv c a)) id e
      fun _ _ _ => True := by
  refine ((array (cfg := cfg) n).bind fun v => LEnc.config (LEnc.pure (conv cfg v))).re ?_ ?_
  · rintro _ ⟨v, _⟩ tl _ ⟨⟨h, _⟩, _⟩
    obtain ⟨x, rfl⟩ := hsurj v h
    exact ⟨x, hconv x, by simp, trivial⟩
  · rintro _ x tl _ _
    refine ⟨(e x, ()), hconv x, by simp, ⟨hlen x, fun h => ?_⟩, trivial⟩
    have h : e x = [] := h
    have := hlen x
    rw [h] at this
    exact absurd this.symm hn

theorem u16 (hs : Src cfg o) : LEnc cfg (parseU16 : Inplace U16) id (e16 o) fun _ _ _ => True :=
  uint (conv := fun c => c.endian.conv16) (by decide) hs.conv16 (e16_length o) fun bs h => enc_surj o 2 bs h
theorem u32 (hs : Src cfg o) : LEnc cfg (parseU32 : Inplace U32) id (e32 o) fun _ _ _ => True :=
  uint (conv := fun c => c.endian.conv32) (by decide) hs.conv32 (e32_length o) fun bs h => enc_surj o 4 bs h
theorem u64 (hs : Src cfg o) : LEnc cfg (parseU64 : Inplace U64) id (e64 o) fun _ _ _ => True :=
  uint (conv := fun c => c.endian.conv64) (by decide) hs.conv64 (e64_length o) fun bs h => enc_surj o 8 bs h

/-- An optional part; if it is not there, any value will do for it. -/
theorem parseIf {s : Inplace α} {val : V → α} {enc : V → List Byte} {C : Nat → V → List Byte → Prop} (dflt : V) {b : Bool} (c : Bool) (hbc : b = c)
    (h : c = true → LEnc cfg s val enc C) :
    LEnc cfg (Perf.parseIf b s) (fun v => optv c (val v)) (fun v => opt c (enc v)) fun k v tl => c = true → C k v tl := by
  subst hbc
  cases b with
  | true => exact ((h rfl).map some).re (fun _ v tl _ h => ⟨v, rfl, rfl, fun _ => h⟩) fun _ v tl _ h => ⟨v, rfl, rfl, h rfl⟩
  | false =>
    exact (LEnc.pure (α := Option α) none).re (fun _ v tl _ h => ⟨dflt, rfl, rfl, nofun⟩) fun _ v tl _ h => ⟨(), rfl, rfl, trivial⟩

theorem if64 (hs : Src cfg o) {b : Bool} (c : Bool) (hbc : b = c) :
    LEnc cfg (Perf.parseIf b (parseU64 : Inplace U64)) (fun v => optv c v) (fun v => opt c (e64 o v)) fun _ _ _ => c = true → True :=
  parseIf (val := id) 0#64 c hbc fun _ => u64 hs
theorem if32 (hs : Src cfg o) {b : Bool} (c : Bool) (hbc : b = c) :
    LEnc cfg (Perf.parseIf b (parseU32 : Inplace U32)) (fun v => optv c v) (fun v => opt c (e32 o v)) fun _ _ _ => c = true → True :=
  parseIf (val := id) 0#32 c hbc fun _ => u32 hs

theorem rest : LEnc cfg (ParserM.rest : Inplace (List Byte)) id id fun _ v tl => tl = [] ∧ v ≠ [] := by
  intro f _ _ hf _ _ hl a g
  show Inplace.rest f = _ ↔ _
  unfold Inplace.rest
  by_cases h : f.s.bytes = []
  · rw [if_pos h]
    constructor
    · intro hr; cases hr
    · rintro ⟨v, tl, e1, _, _, _, e4⟩
      rw [h] at e1
      exact absurd (List.append_eq_nil_iff.1 e1.symm).1 e4
  · rw [if_neg h]
    constructor
    · intro hr
      cases hr
      exact ⟨_, [], by simp, rfl, rfl, rfl, h⟩
    · rintro ⟨v, tl, e1, e2, e3, rfl, _⟩
      rw [List.append_nil] at e1
      dsimp only [id] at e1 e2 e3
      rw [e1, e2, e3]

theorem name : LEnc cfg (ParserM.restTrimNul : Inplace (List Byte)) (fun n : KName => n.text) KName.enc fun _ n tl => tl = [] ∧ n.Ok := by
  refine ((rest (cfg := cfg)).map fun c => c.take (trimNul c).length).re ?_ ?_
  · rintro _ v tl _ ⟨rfl, h0⟩
    obtain ⟨h1, n, h2⟩ := trimNul_inv v
    have he : KName.enc ⟨trimNul v, n⟩ = v := h2.symm
    refine ⟨⟨trimNul v, n⟩, ?_, he.symm, rfl, h1, by rw [he]; exact h0⟩
    show v.take (trimNul v).length = trimNul v
    rw [h2]
    have : trimNul (trimNul v ++ List.replicate n 0#8) = trimNul v := by rw [← h2]
    rw [this, List.take_left]
  · rintro _ n tl _ ⟨rfl, h1, h2⟩
    refine ⟨n.enc, ?_, rfl, rfl, h2⟩
    show n.enc.take (trimNul n.enc).length = n.text
    have : trimNul n.enc = n.text := trimNul_pad n.text n.pad h1
    rw [this]
    unfold KName.enc
    rw [List.take_left]

theorem repeated {item : Inplace T} {en : T → List Byte} (hi : LEnc cfg item id en fun _ _ _ => True) :
    ∀ n, LEnc cfg (Inplace.repeated item n) id (fun xs => xs.flatMap en) fun _ xs _ => xs.length = n
  | 0 => (LEnc.pure (cfg := cfg) ([] : List T)).re (fun _ _ tl _ _ => ⟨[], rfl, rfl, rfl⟩) fun _ xs tl _ h => by
      cases List.length_eq_zero_iff.1 h
      exact ⟨(), rfl, rfl, trivial⟩
  | n + 1 => by
    refine (hi.bind fun x => (repeated hi n).map fun xs => x :: xs).re ?_ ?_
    · rintro _ ⟨x, xs⟩ tl _ ⟨_, h⟩
      exact ⟨x :: xs, rfl, rfl, by simpa using h⟩
    · rintro _ (_ | ⟨x, xs⟩) tl _ h
      · cases h
      · exact ⟨(x, xs), rfl, rfl, trivial, by simpa using h⟩

/-- An element is decoded from its encoding, and every element has one. -/
structure Coded (cfg : ParseConfig) (e : Elem T) (en : T → List Byte) : Prop where
  pos : e.size ≠ 0
  len : ∀ x, (en x).length = e.size
  dec : cfg.endian.isNative = true → ∀ x, e.dec (fromOrder cfg.host 64) (en x) = x
  surj : ∀ bs : List Byte, bs.length = e.size → ∃ x, bs = en x

theorem Coded.flat {e : Elem T} {en : T → List Byte} (h : Coded cfg e en) : ∀ xs : List T, (xs.flatMap en).length = xs.length * e.size
  | [] => by simp
  | x :: xs => by rw [List.flatMap_cons, List.length_append, h.flat xs, h.len, List.length_cons, Nat.succ_mul, Nat.add_comm]

theorem Coded.decodeAll {e : Elem T} {en : T → List Byte} (h : Coded cfg e en) (hn : cfg.endian.isNative = true) :
    ∀ xs : List T, e.decodeAll (fromOrder cfg.host 64) xs.length (xs.flatMap en) = xs
  | [] => rfl
  | x :: xs => by
    rw [List.length_cons, Elem.decodeAll, List.flatMap_cons, ← h.len x, List.take_left, List.drop_left, h.dec hn, h.decodeAll hn xs]

theorem Coded.list {e : Elem T} {en : T → List Byte} (h : Coded cfg e en) : ∀ (n : Nat) (bs : List Byte), bs.length = n * e.size →
    ∃ xs : List T, xs.length = n ∧ bs = xs.flatMap en
  | 0, bs, hl => ⟨[], rfl, List.length_eq_zero_iff.1 (by omega)⟩
  | n + 1, bs, hl => by
    rw [Nat.succ_mul] at hl
    obtain ⟨x, hx⟩ := h.surj (bs.take e.size) (by rw [List.length_take]; omega)
    obtain ⟨xs, h1, h2⟩ := h.list n (bs.drop e.size) (by rw [List.length_drop]; omega)
    exact ⟨x :: xs, by rw [List.length_cons, h1], by rw [List.flatMap_cons, ← hx, ← h2, List.take_append_drop]⟩

/-- A list: what is dropped, and the elements. -/
theorem slice {e : Elem T} {item : Inplace T} {en : T → List Byte} (hc : Coded cfg e en)
    (hi : LEnc cfg item id en fun _ _ _ => True) (n : Nat) :
    LEnc cfg (ParserM.slice e item n : Inplace (List T)) (fun v : List Byte × List T => v.2) (fun v => v.1 ++ v.2.flatMap en)
      fun k v tl => v.2.length = n ∧ v.1.length = dropLen cfg.endian.isNative k (e.size * n) ∧
        (cfg.endian.isNative = true → v.2 = [] → tl ≠ []) := by
  intro f k k' hf ha hk hl a g
  have hrep := repeated hi n
  -- nothing dropped
  have hplain : (cfg.endian.isNative = true → f.s.bytes ≠ []) → (cfg.endian.isNative = true → k % 8 ≠ 0 → e.size * n ≤ f.s.bytes.length → n = 0) →
      (Inplace.repeated item n f = .ok (a, g) ↔ ∃ (v : List Byte × List T) (tl : List Byte), f.s.bytes = v.1 ++ v.2.flatMap en ++ tl ∧
        g = f.adv (v.1 ++ v.2.flatMap en).length ∧ a = v.2 ∧ v.2.length = n ∧ v.1.length = dropLen cfg.endian.isNative k (e.size * n) ∧
        (cfg.endian.isNative = true → v.2 = [] → tl ≠ [])) := by
    intro hne hfit
    rw [hrep f k k' hf ha hk hl a g]
    constructor
    · rintro ⟨xs, tl, e1, e2, e3, e4⟩
      dsimp only [id] at e1 e2 e3
      refine ⟨([], xs), tl, by simpa using e1, by simpa using e2, e3, e4, ?_, fun hn h0 ht => hne hn ?_⟩
      · unfold dropLen
        split
        · rename_i h
          have := hfit h.1 h.2 (by rw [e1, List.length_append, hc.flat, e4, Nat.mul_comm n]; omega)
          rw [this]; rfl
        · rfl
      · have h0 : xs = [] := h0
        rw [e1, h0, ht]; rfl
    · rintro ⟨⟨d, xs⟩, tl, e1, e2, e3, e4, e5, e6⟩
      dsimp only at e1 e2 e3 e4 e5 e6
      have hd : d = [] := by
        apply List.length_eq_zero_iff.1
        rw [e5]
        unfold dropLen
        split
        · rename_i h
          rw [hfit h.1 h.2 (by
            rw [e1, List.length_append, List.length_append, e5]
            unfold dropLen
            rw [if_pos h]
            omega)]
          rfl
        · rfl
      subst hd
      exact ⟨xs, tl, by simpa using e1, by simpa using e2, e3, e4⟩
  show Inplace.slice e item n f = _ ↔ _
  unfold Inplace.slice
  rw [hf]
  by_cases hnat : cfg.endian.isNative = true
  case neg => rw [if_neg hnat]; exact hplain (fun h => absurd h hnat) fun h => absurd h hnat
  rw [if_pos hnat]
  by_cases h1 : n * e.size ≥ usizeLimit
  · rw [if_pos h1]
    constructor
    · intro hr; cases hr
    · rintro ⟨v, tl, e1, _, _, e4, _⟩
      exfalso
      dsimp only at e1
      rw [← e4, ← hc.flat] at h1
      rw [e1, List.length_append, List.length_append] at hl
      have : (65536 : Nat) ≤ usizeLimit := by decide
      omega
  rw [if_neg h1]
  by_cases h2 : f.s.bytes = []
  · rw [if_pos h2]
    constructor
    · intro hr; cases hr
    · rintro ⟨v, tl, e1, _, _, e4, _, e5⟩
      dsimp only at e1
      rw [h2] at e1
      have h3 := List.append_eq_nil_iff.1 e1.symm
      refine absurd h3.2 (e5 hnat ?_)
      have := hc.flat v.2
      rw [(List.append_eq_nil_iff.1 h3.1).2] at this
      have := this.symm
      simp only [List.length_nil, Nat.mul_eq_zero, hc.pos, or_false] at this
      exact List.length_eq_zero_iff.1 this
  rw [if_neg h2]
  by_cases h3 : n * e.size ≤ f.s.bytes.length
  case neg => rw [if_neg h3]; exact hplain (fun _ => h2) fun _ _ h => absurd (by rw [Nat.mul_comm]; exact h) h3
  rw [if_pos h3]
  by_cases h4 : n * e.size = 0 ∨ f.s.al.aligned = true
  · rw [if_pos h4]
    have hfit : cfg.endian.isNative = true → k % 8 ≠ 0 → e.size * n ≤ f.s.bytes.length → n = 0 := by
      intro _ h8 _
      rcases h4 with h4 | h4
      · exact (Nat.mul_eq_zero.1 h4).resolve_right hc.pos
      · rw [ha] at h4
        have h4 : k' % 8 = 0 := by simpa [Al.aligned] using h4
        omega
    rw [← hplain (fun _ => h2) hfit]
    obtain ⟨xs, x1, x2⟩ := hc.list n (f.s.bytes.take (n * e.size)) (by rw [List.length_take]; omega)
    have hd : e.decodeAll (fromOrder cfg.host 64) n (f.s.bytes.take (n * e.size)) = xs := by rw [x2, ← x1]; exact hc.decodeAll hnat xs
    rw [hd]
    have : Inplace.repeated item n f = .ok (xs, f.adv (n * e.size)) := by
      refine (hrep f k k' hf ha hk hl _ _).2 ⟨xs, f.s.bytes.drop (n * e.size), ?_, ?_, rfl, x1⟩
      · dsimp only [id]; rw [← x2, List.take_append_drop]
      · dsimp only [id]; rw [← x2, List.length_take, Nat.min_eq_left h3]
    rw [this]
  · rw [if_neg h4]
    have h5 : n * e.size ≠ 0 := fun h => h4 (.inl h)
    have h6 : k % 8 ≠ 0 := by
      intro h
      refine h4 (.inr ?_)
      rw [ha]
      show (k' % 8 == 0) = true
      rw [hk, h]; rfl
    have hdl : dropLen cfg.endian.isNative k (e.size * n) = n * e.size := by
      unfold dropLen
      rw [if_pos ⟨hnat, h6⟩, Nat.mul_comm]
    rw [hrep (f.adv (n * e.size)) (k + n * e.size) (k' + n * e.size) hf (Flat.adv_at ha _) (by omega)
      (by rw [Flat.adv_bytes, List.length_drop]; omega) a g]
    dsimp only
    rw [hdl]
    constructor
    · rintro ⟨xs, tl, e1, e2, e3, e4⟩
      dsimp only [id] at e1 e2 e3
      rw [Flat.adv_bytes] at e1
      refine ⟨(f.s.bytes.take (n * e.size), xs), tl, ?_, ?_, e3, e4, ?_, fun _ h0 => ?_⟩
      · dsimp only; rw [List.append_assoc, ← e1, List.take_append_drop]
      · dsimp only; rw [e2, Flat.adv_adv, List.length_append, List.length_take, Nat.min_eq_left h3]
      · dsimp only; rw [List.length_take, Nat.min_eq_left h3]
      · have h0 : xs = [] := h0
        rw [h0] at e4
        exact absurd (by rw [← e4]; simp) h5
    · rintro ⟨⟨d, xs⟩, tl, e1, e2, e3, e4, e5, e6⟩
      dsimp only at e1 e2 e3 e4 e5 e6
      refine ⟨xs, tl, ?_, ?_, e3, e4⟩
      · rw [Flat.adv_bytes, e1, ← e5, List.append_assoc, List.drop_left]
      · rw [e2, Flat.adv_adv, List.length_append, e5]

theorem padded {s : Inplace α} {val : V → α} {enc : V → List Byte} {C : Nat → V → List Byte → Prop} (h : LEnc cfg s val enc C) {n : Nat} (hn : n ≠ 0) :
    LEnc cfg (ParserM.padded n s : Inplace α) (fun x : V × List Byte => val x.1) (fun x => enc x.1 ++ x.2)
      fun k x tl => C k x.1 (x.2 ++ tl) ∧ x.2.length < n ∧ ((enc x.1).length + x.2.length) % n = 0 := by
  intro f j j' hf ha hj hl a g
  show Inplace.padded n s f = _ ↔ _
  unfold Inplace.padded
  rw [if_neg hn]
  constructor
  · intro hr
    rcases hs : s f with e | ⟨b, f1⟩ <;> rw [hs] at hr
    · cases hr
    · obtain ⟨v, t1, e1, e2, e3, e4⟩ := (h f j j' hf ha hj hl b f1).1 hs
      subst e2 e3
      have hb := Flat.adv_append e1
      have hoff : (f.adv (enc v).length).off - f.off = (enc v).length := by show f.off + _ - f.off = _; omega
      simp only [hoff] at hr
      by_cases h0 : (enc v).length % n = 0
      · rw [if_pos h0] at hr
        cases hr
        exact ⟨(v, []), t1, by rw [e1]; simp, by simp, rfl, by simpa using e4, by simp; omega, by simpa using h0⟩
      · rw [if_neg h0] at hr
        rcases ht : Inplace.take (n - (enc v).length % n) (f.adv (enc v).length) with e | ⟨pad, g'⟩ <;> rw [ht] at hr
        · cases hr
        · cases hr
          obtain ⟨w, tl, d1, d2, d3, d4⟩ := (take (cfg := cfg) _ (f.adv (enc v).length) _ _ hf (Flat.adv_at ha _) rfl
            (by rw [hb]; rw [e1, List.length_append] at hl; omega) pad g).1 ht
          dsimp only [id] at d1 d2
          rw [hb] at d1
          subst d1
          have hlt : (enc v).length % n < n := Nat.mod_lt _ (by omega)
          refine ⟨(v, w), tl, by rw [e1, List.append_assoc], by rw [d2, Flat.adv_adv, List.length_append], rfl, e4, ?_, ?_⟩
          · show w.length < n
            rw [d4]; omega
          · show ((enc v).length + w.length) % n = 0
            rw [d4]
            have := Nat.div_add_mod (enc v).length n
            rw [show (enc v).length + (n - (enc v).length % n) = n * ((enc v).length / n) + n by omega, ← Nat.mul_succ, Nat.mul_mod_right]
  · rintro ⟨⟨v, pad⟩, tl, e1, e2, e3, e4, e5, e6⟩
    dsimp only at e1 e2 e3 e4 e5 e6
    rw [List.append_assoc] at e1
    have hb := Flat.adv_append e1
    have hs : s f = .ok (val v, f.adv (enc v).length) := (h f j j' hf ha hj hl _ _).2 ⟨v, _, e1, rfl, rfl, e4⟩
    have hoff : (f.adv (enc v).length).off - f.off = (enc v).length := by show f.off + _ - f.off = _; omega
    rw [hs]
    simp only [hoff]
    have hlt : (enc v).length % n < n := Nat.mod_lt _ (by omega)
    have hmod : ((enc v).length % n + pad.length) % n = 0 := by rw [Nat.mod_add_mod]; exact e6
    by_cases h0 : (enc v).length % n = 0
    · rw [if_pos h0]
      rw [h0, Nat.zero_add, Nat.mod_eq_of_lt e5] at hmod
      cases List.length_eq_zero_iff.1 hmod
      rw [e2, e3]; simp
    · rw [if_neg h0]
      have hp : pad.length = n - (enc v).length % n := by
        have h2 : (enc v).length % n + pad.length < 2 * n := by omega
        by_cases h3 : (enc v).length % n + pad.length < n
        · rw [Nat.mod_eq_of_lt h3] at hmod; omega
        · rw [Nat.mod_eq_sub_mod (by omega), Nat.mod_eq_of_lt (by omega)] at hmod; omega
      have ht := (take (cfg := cfg) (n - (enc v).length % n) (f.adv (enc v).length) _ _ hf (Flat.adv_at ha _) rfl
        (by rw [hb]; rw [e1, List.length_append] at hl; omega) pad _).2 ⟨pad, tl, hb, rfl, rfl, hp⟩
      rw [ht, e2, e3]
      simp only [id, Flat.adv_adv, List.length_append]

end LEnc
end Perf
