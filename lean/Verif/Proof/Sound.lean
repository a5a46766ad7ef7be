import Verif.Proof.Encode
/-!
# What flat parsers accept

`Sound cfg s Q`: whenever `s` yields a value, it has consumed bytes that are related to the value by `Q`. The converse of
`Reads`.
-/
namespace Perf
open ParserM
variable {α α' T : Type} {cfg : ParseConfig} {o : Order}

/-- See the top of the file. -/
def Sound (cfg : ParseConfig) (s : Spec α) (Q : α → List Byte → Prop) : Prop :=
  ∀ f a f', f.cfg = cfg → s f = .ok (a, f') → ∃ bs, f.s.bytes = bs ++ f'.s.bytes ∧ f' = f.adv bs.length ∧ Q a bs

/-! ## Every byte string is an encoding -/

theorem digits_of_leNat (bs : List Byte) : digits bs.length (leNat bs) = bs := by
  induction bs with
  | nil => rfl
  | cons b bs ih =>
    have hb := b.isLt
    simp only [List.length_cons, digits, leNat]
    rw [show (b.toNat + 256 * leNat bs) / 256 = leNat bs by omega, ih]
    congr 1
    apply BitVec.eq_of_toNat_eq
    rw [BitVec.toNat_ofNat]
    omega

theorem leNat_lt_pow (bs : List Byte) : leNat bs < 256 ^ bs.length := by
  induction bs with
  | nil => simp [leNat]
  | cons b bs ih =>
    have hb := b.isLt
    simp only [List.length_cons, leNat, Nat.pow_succ]
    omega

theorem enc_surj (o : Order) (n : Nat) (bs : List Byte) (h : bs.length = n) : ∃ x : BitVec (8 * n), bs = enc o n x.toNat := by
  have key : ∀ cs : List Byte, cs.length = n → digits n (BitVec.ofNat (8 * n) (leNat cs)).toNat = cs := by
    intro cs hc
    have h1 := leNat_lt_pow cs
    rw [hc, show (256 : Nat) ^ n = 2 ^ (8 * n) by rw [Nat.pow_mul]] at h1
    rw [toNat_ofNat_lt h1, ← hc]
    exact digits_of_leNat cs
  cases o with
  | little => exact ⟨_, (key bs h).symm⟩
  | big =>
    refine ⟨BitVec.ofNat (8 * n) (leNat bs.reverse), ?_⟩
    show bs = (digits n _).reverse
    rw [key bs.reverse (by simpa using h), List.reverse_reverse]

/-! ## Combinators -/

theorem Sound.mono {s : Spec α} {Q Q' : α → List Byte → Prop} (h : Sound cfg s Q) (hq : ∀ a bs, Q a bs → Q' a bs) : Sound cfg s Q' := by
  intro f a f' hf hr
  obtain ⟨bs, h1, h2, h3⟩ := h f a f' hf hr
  exact ⟨bs, h1, h2, hq _ _ h3⟩

theorem Sound.pure {a : α} {Q : α → List Byte → Prop} (h : Q a []) : Sound cfg (Pure.pure a : Spec α) Q := by
  intro f b f' _ hr
  cases hr
  exact ⟨[], rfl, by simp, h⟩

theorem Sound.bind {s : Spec α} {k : α → Spec α'} {Q : α → List Byte → Prop} {R : α' → List Byte → Prop} (h : Sound cfg s Q)
    (hk : ∀ a bs, Q a bs → Sound cfg (k a) fun b cs => R b (bs ++ cs)) : Sound cfg (s >>= k) R := by
  intro f b f' hf hr
  rcases hs : s f with e | ⟨a, g⟩
  · rw [Spec.bind_err hs] at hr; cases hr
  · rw [Spec.bind_ok hs] at hr
    obtain ⟨bs, h1, h2, h3⟩ := h f a g hf hs
    obtain ⟨cs, h4, h5, h6⟩ := hk a bs h3 g b f' (by rw [h2]; exact hf) hr
    refine ⟨bs ++ cs, by rw [h1, h4, List.append_assoc], ?_, h6⟩
    rw [h5, h2, Flat.adv_adv, List.length_append]

theorem Sound.config {k : ParseConfig → Spec α} {Q : α → List Byte → Prop} (h : Sound cfg (k cfg) Q) :
    Sound cfg ((ParserM.config : Spec ParseConfig) >>= k) Q := by
  intro f a f' hf hr
  have : ((ParserM.config : Spec ParseConfig) >>= k) f = k f.cfg f := rfl
  rw [this, hf] at hr
  exact h f a f' hf hr

theorem Sound.fail {e : ParseError} {Q : α → List Byte → Prop} : Sound cfg (ParserM.fail e : Spec α) Q := fun _ _ _ _ hr => by cases hr

theorem Sound.ite {c : Prop} [Decidable c] {s s' : Spec α} {Q : α → List Byte → Prop} (h : c → Sound cfg s Q) (h' : ¬ c → Sound cfg s' Q) :
    Sound cfg (if c then s else s') Q := by
  split
  · exact h ‹_›
  · exact h' ‹_›

theorem Sound.take (n : Nat) : Sound cfg (Spec.take n) fun a bs => bs = a ∧ a.length = n := by
  intro f a f' _ hr
  unfold Spec.take at hr
  split at hr
  · next hn =>
    cases hr
    have hl : (f.s.bytes.take n).length = n := by rw [List.length_take]; omega
    refine ⟨f.s.bytes.take n, by simp, by rw [hl], rfl, hl⟩
  · cases hr

theorem Sound.array (n : Nat) : Sound cfg (Spec.bytes n) fun a bs => bs = a ∧ a.length = n := by
  intro f a f' hf hr
  unfold Spec.bytes at hr
  split at hr
  · cases hr
  · exact Sound.take n f a f' hf hr

theorem Sound.u8 : Sound cfg (parseU8 : Spec U8) fun x bs => bs = [x] := by
  refine Sound.bind (Sound.array 1) fun a bs h => Sound.pure ?_
  obtain ⟨rfl, h⟩ := h
  match bs, h with
  | [b], _ => simp [fromLE, leNat]

theorem Sound.u16 (hs : Src cfg o) : Sound cfg (parseU16 : Spec U16) fun x bs => bs = e16 o x := by
  refine Sound.bind (Sound.array 2) fun a bs h => Sound.config (Sound.pure ?_)
  obtain ⟨rfl, h⟩ := h
  obtain ⟨x, rfl⟩ := enc_surj o 2 bs h
  rw [List.append_nil]
  have := hs.conv16 x
  unfold e16 at this ⊢
  rw [this]

theorem Sound.u32 (hs : Src cfg o) : Sound cfg (parseU32 : Spec U32) fun x bs => bs = e32 o x := by
  refine Sound.bind (Sound.array 4) fun a bs h => Sound.config (Sound.pure ?_)
  obtain ⟨rfl, h⟩ := h
  obtain ⟨x, rfl⟩ := enc_surj o 4 bs h
  rw [List.append_nil]
  have := hs.conv32 x
  unfold e32 at this ⊢
  rw [this]

theorem Sound.u64 (hs : Src cfg o) : Sound cfg (parseU64 : Spec U64) fun x bs => bs = e64 o x := by
  refine Sound.bind (Sound.array 8) fun a bs h => Sound.config (Sound.pure ?_)
  obtain ⟨rfl, h⟩ := h
  obtain ⟨x, rfl⟩ := enc_surj o 8 bs h
  rw [List.append_nil]
  have := hs.conv64 x
  unfold e64 at this ⊢
  rw [this]

/-- An optional part; if the flag is not set any value will do for the part that was not written. -/
theorem Sound.parseIf {s : Spec α} {Q : α → List Byte → Prop} {b : Bool} (c : Bool) (hbc : b = c) (h : c = true → Sound cfg s Q) :
    Sound cfg (Perf.parseIf b s) fun x bs => (c = true ∧ ∃ v, x = some v ∧ Q v bs) ∨ (c = false ∧ x = none ∧ bs = []) := by
  subst hbc
  cases b with
  | true =>
    refine Sound.bind (h rfl) fun a bs hq => Sound.pure ?_
    exact .inl ⟨rfl, a, rfl, by rw [List.append_nil]; exact hq⟩
  | false => exact Sound.pure (.inr ⟨rfl, rfl, rfl⟩)

/-- An optional integer or other part with an encoding. -/
theorem Sound.parseIfEnc {s : Spec α} {V : Type} (en : V → List Byte) (val : V → α) (ok : V → Prop) (dflt : V) {b : Bool} (c : Bool) (hbc : b = c)
    (h : c = true → Sound cfg s fun a bs => ∃ v, a = val v ∧ bs = en v ∧ ok v) :
    Sound cfg (Perf.parseIf b s) fun x bs => ∃ v, x = optv c (val v) ∧ bs = opt c (en v) ∧ (c = true → ok v) := by
  refine (Sound.parseIf c hbc h).mono ?_
  rintro x bs (⟨rfl, _, rfl, v, rfl, rfl, h⟩ | ⟨rfl, rfl, rfl⟩)
  · exact ⟨v, rfl, rfl, fun _ => h⟩
  · exact ⟨dflt, rfl, rfl, nofun⟩

theorem Sound.if64 (hs : Src cfg o) {b : Bool} (c : Bool) (hbc : b = c) :
    Sound cfg (Perf.parseIf b (parseU64 : Spec U64)) fun x bs => ∃ v, x = optv c v ∧ bs = opt c (e64 o v) := by
  refine (Sound.parseIfEnc (V := U64) (e64 o) id (fun _ => True) 0#64 c hbc fun _ => (Sound.u64 hs).mono ?_).mono ?_
  · rintro a bs rfl; exact ⟨a, rfl, rfl, trivial⟩
  · rintro a bs ⟨v, h1, h2, _⟩; exact ⟨v, h1, h2⟩

theorem Sound.if32 (hs : Src cfg o) {b : Bool} (c : Bool) (hbc : b = c) :
    Sound cfg (Perf.parseIf b (parseU32 : Spec U32)) fun x bs => ∃ v, x = optv c v ∧ bs = opt c (e32 o v) := by
  refine (Sound.parseIfEnc (V := U32) (e32 o) id (fun _ => True) 0#32 c hbc fun _ => (Sound.u32 hs).mono ?_).mono ?_
  · rintro a bs rfl; exact ⟨a, rfl, rfl, trivial⟩
  · rintro a bs ⟨v, h1, h2, _⟩; exact ⟨v, h1, h2⟩

/-! ## Variable length parts -/

theorem Sound.rest : Sound cfg Spec.rest fun a bs => bs = a ∧ a ≠ [] := by
  intro f a f' _ hr
  unfold Spec.rest at hr
  split at hr
  · cases hr
  · next h0 =>
    split at hr
    · cases hr
      exact ⟨f.s.bytes, by simp, rfl, rfl, h0⟩
    · cases hr

theorem trimNul_inv (bs : List Byte) : (trimNul bs).getLast? ≠ some 0#8 ∧ ∃ n, bs = trimNul bs ++ List.replicate n 0#8 := by
  unfold trimNul
  have key : ∀ l : List Byte, (l.dropWhile (· == 0#8)).head? ≠ some 0#8 ∧
      ∃ n, l = List.replicate n 0#8 ++ l.dropWhile (· == 0#8) := by
    intro l
    induction l with
    | nil => exact ⟨by simp, 0, rfl⟩
    | cons b l ih =>
      rw [List.dropWhile_cons]
      by_cases h : b = 0#8
      · subst h
        rw [if_pos (by rfl)]
        obtain ⟨h1, n, h2⟩ := ih
        refine ⟨h1, n + 1, ?_⟩
        rw [List.replicate_succ, List.cons_append, ← h2]
      · rw [if_neg (by simpa using h)]
        exact ⟨by simpa using h, 0, rfl⟩
  obtain ⟨h1, n, h2⟩ := key bs.reverse
  refine ⟨by rw [List.getLast?_reverse]; exact h1, n, ?_⟩
  have := congrArg List.reverse h2
  rw [List.reverse_reverse, List.reverse_append, List.reverse_replicate] at this
  exact this

theorem Sound.name : Sound cfg (ParserM.restTrimNul : Spec (List Byte)) fun a bs => ∃ n : KName, a = n.text ∧ bs = n.enc ∧ n.Ok := by
  refine Sound.bind Sound.rest fun a bs h => Sound.pure ?_
  obtain ⟨rfl, h0⟩ := h
  obtain ⟨h1, n, h2⟩ := trimNul_inv bs
  have he : KName.enc ⟨trimNul bs, n⟩ = bs := h2.symm
  exact ⟨⟨trimNul bs, n⟩, rfl, by rw [List.append_nil, he], h1, by rw [he]; exact h0⟩

theorem Sound.repeated {item : Spec T} {en : T → List Byte} (hi : Sound cfg item fun x bs => bs = en x) :
    ∀ n, Sound cfg (Spec.repeated item n) fun xs bs => bs = xs.flatMap en ∧ xs.length = n
  | 0 => Sound.pure ⟨rfl, rfl⟩
  | n + 1 => by
    refine Sound.bind hi fun x bs hx => ?_
    refine Sound.bind (Sound.repeated hi n) fun xs cs hxs => Sound.pure ?_
    obtain ⟨rfl, h⟩ := hxs
    subst hx
    exact ⟨by simp, by simp [h]⟩

theorem Sound.slice {e : Elem T} {item : Spec T} {en : T → List Byte} (hi : Sound cfg item fun x bs => bs = en x) (n : Nat) :
    Sound cfg (ParserM.slice e item n : Spec (List T)) fun xs bs => bs = xs.flatMap en ∧ xs.length = n := by
  intro f a f' hf hr
  have hr : Spec.slice e item n f = .ok (a, f') := hr
  have key : Spec.repeated item n f = .ok (a, f') := by
    unfold Spec.slice at hr
    by_cases h1 : f.cfg.endian.isNative = true
    · simp only [h1, if_true] at hr
      by_cases h2 : n * e.size ≥ usizeLimit
      · rw [if_pos h2] at hr; cases hr
      · rw [if_neg h2] at hr
        by_cases h3 : f.s.bytes = []
        · rw [if_pos h3] at hr; cases hr
        · rw [if_neg h3] at hr
          by_cases h4 : n ≠ 0 ∧ n * e.size ≤ f.s.bytes.length ∧ f.s.al.aligned = false
          · rw [if_pos h4] at hr; cases hr
          · rw [if_neg h4] at hr; exact hr
    · simp only [Bool.not_eq_true] at h1
      simp only [h1, Bool.false_eq_true, if_false] at hr
      exact hr
  exact Sound.repeated hi n f a f' hf key

theorem Sound.padded {s : Spec α} {Q : α → List Byte → Prop} (h : Sound cfg s Q) (n : Nat) :
    Sound cfg (ParserM.padded n s : Spec α) fun a bs => ∃ x pad, bs = x ++ pad ∧ Q a x ∧ pad.length < n ∧ (x.length + pad.length) % n = 0 := by
  intro f a f' hf hr
  have hr : Spec.padded n s f = .ok (a, f') := hr
  unfold Spec.padded at hr
  by_cases hn : n = 0
  · rw [if_pos hn] at hr; cases hr
  · rw [if_neg hn] at hr
    rcases hsf : s f with e | ⟨b, g⟩
    · rw [hsf] at hr; cases hr
    · rw [hsf] at hr
      obtain ⟨x, h1, h2, h3⟩ := h f b g hf hsf
      have hoff : g.off - f.off = x.length := by rw [h2]; show f.off + x.length - f.off = _; omega
      simp only [hoff] at hr
      by_cases h0 : x.length % n = 0
      · rw [if_pos h0] at hr
        cases hr
        exact ⟨x, h1, h2, x, [], by simp, h3, by simp; omega, by simpa using h0⟩
      · rw [if_neg h0] at hr
        rcases ht : Spec.take (n - x.length % n) g with e | ⟨pad, g'⟩
        · rw [ht] at hr; cases hr
        · rw [ht] at hr
          cases hr
          obtain ⟨bs, h4, h5, rfl, h6⟩ := Sound.take (cfg := g.cfg) _ g pad f' rfl ht
          have hlt : x.length % n < n := Nat.mod_lt _ (by omega)
          refine ⟨x ++ bs, by rw [h1, h4, List.append_assoc], ?_, x, bs, rfl, h3, by omega, ?_⟩
          · rw [h5, h2, Flat.adv_adv, List.length_append]
          · rw [h6]
            have := Nat.div_add_mod x.length n
            rw [show x.length + (n - x.length % n) = n * (x.length / n) + n by omega, ← Nat.mul_succ, Nat.mul_mod_right]

end Perf
