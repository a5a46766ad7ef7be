import Verif.Proof.IRoundTrip
import Verif.Proof.SoundBody
/-!
# What the ideal parsers accept

`ISound cfg s Q`: whenever `s` yields a value, it has consumed bytes that are related to the value by `Q`. The converse of
`IReads`.
-/
namespace Perf
open ParserM
variable {α α' T : Type} {cfg : ParseConfig} {o : Order}

/-- See the top of the file. -/
def ISound (cfg : ParseConfig) (s : Ideal α) (Q : α → List Byte → Prop) : Prop :=
  ∀ f a f', f.cfg = cfg → s f = .ok (a, f') → ∃ bs, f.bytes = bs ++ f'.bytes ∧ f' = f.adv bs.length ∧ Q a bs

/-! ## Combinators -/

theorem ISound.mono {s : Ideal α} {Q Q' : α → List Byte → Prop} (h : ISound cfg s Q) (hq : ∀ a bs, Q a bs → Q' a bs) : ISound cfg s Q' := by
  intro f a f' hf hr
  obtain ⟨bs, h1, h2, h3⟩ := h f a f' hf hr
  exact ⟨bs, h1, h2, hq _ _ h3⟩

theorem ISound.pure {a : α} {Q : α → List Byte → Prop} (h : Q a []) : ISound cfg (Pure.pure a : Ideal α) Q := by
  intro f b f' _ hr
  cases hr
  exact ⟨[], rfl, (Input.adv_zero f).symm, h⟩

theorem ISound.bind {s : Ideal α} {k : α → Ideal α'} {Q : α → List Byte → Prop} {R : α' → List Byte → Prop} (h : ISound cfg s Q)
    (hk : ∀ a bs, Q a bs → ISound cfg (k a) fun b cs => R b (bs ++ cs)) : ISound cfg (s >>= k) R := by
  intro f b f' hf hr
  rcases hs : s f with e | ⟨a, g⟩
  · rw [Ideal.bind_err hs] at hr; cases hr
  · rw [Ideal.bind_ok hs] at hr
    obtain ⟨bs, h1, h2, h3⟩ := h f a g hf hs
    obtain ⟨cs, h4, h5, h6⟩ := hk a bs h3 g b f' (by rw [h2]; exact hf) hr
    refine ⟨bs ++ cs, by rw [h1, h4, List.append_assoc], ?_, h6⟩
    rw [h5, h2, Input.adv_adv, List.length_append]

theorem ISound.config {k : ParseConfig → Ideal α} {Q : α → List Byte → Prop} (h : ISound cfg (k cfg) Q) :
    ISound cfg ((ParserM.config : Ideal ParseConfig) >>= k) Q := by
  intro f a f' hf hr
  have : ((ParserM.config : Ideal ParseConfig) >>= k) f = k f.cfg f := rfl
  rw [this, hf] at hr
  exact h f a f' hf hr

theorem ISound.fail {e : ParseError} {Q : α → List Byte → Prop} : ISound cfg (ParserM.fail e : Ideal α) Q := fun _ _ _ _ hr => by cases hr

theorem ISound.ite {c : Prop} [Decidable c] {s s' : Ideal α} {Q : α → List Byte → Prop} (h : c → ISound cfg s Q) (h' : ¬ c → ISound cfg s' Q) :
    ISound cfg (if c then s else s') Q := by
  split
  · exact h ‹_›
  · exact h' ‹_›

theorem ISound.take (n : Nat) : ISound cfg (Ideal.take n) fun a bs => bs = a ∧ a.length = n := by
  intro f a f' _ hr
  unfold Ideal.take at hr
  split at hr
  · next hn =>
    cases hr
    have hl : (f.bytes.take n).length = n := by rw [List.length_take]; omega
    refine ⟨f.bytes.take n, by simp, by rw [hl], rfl, hl⟩
  · cases hr

theorem ISound.u8 : ISound cfg (parseU8 : Ideal U8) fun x bs => bs = [x] := by
  refine ISound.bind (ISound.take 1) fun a bs h => ISound.pure ?_
  obtain ⟨rfl, h⟩ := h
  match bs, h with
  | [b], _ => simp [fromLE, leNat]

theorem ISound.u16 (hs : Src cfg o) : ISound cfg (parseU16 : Ideal U16) fun x bs => bs = e16 o x := by
  refine ISound.bind (ISound.take 2) fun a bs h => ISound.config (ISound.pure ?_)
  obtain ⟨rfl, h⟩ := h
  obtain ⟨x, rfl⟩ := enc_surj o 2 bs h
  rw [List.append_nil]
  have := hs.conv16 x
  unfold e16 at this ⊢
  rw [this]

theorem ISound.u32 (hs : Src cfg o) : ISound cfg (parseU32 : Ideal U32) fun x bs => bs = e32 o x := by
  refine ISound.bind (ISound.take 4) fun a bs h => ISound.config (ISound.pure ?_)
  obtain ⟨rfl, h⟩ := h
  obtain ⟨x, rfl⟩ := enc_surj o 4 bs h
  rw [List.append_nil]
  have := hs.conv32 x
  unfold e32 at this ⊢
  rw [this]

theorem ISound.u64 (hs : Src cfg o) : ISound cfg (parseU64 : Ideal U64) fun x bs => bs = e64 o x := by
  refine ISound.bind (ISound.take 8) fun a bs h => ISound.config (ISound.pure ?_)
  obtain ⟨rfl, h⟩ := h
  obtain ⟨x, rfl⟩ := enc_surj o 8 bs h
  rw [List.append_nil]
  have := hs.conv64 x
  unfold e64 at this ⊢
  rw [this]

/-- An optional part; if the flag is not set any value will do for the part that was not written. -/
theorem ISound.parseIf {s : Ideal α} {Q : α → List Byte → Prop} {b : Bool} (c : Bool) (hbc : b = c) (h : c = true → ISound cfg s Q) :
    ISound cfg (Perf.parseIf b s) fun x bs => (c = true ∧ ∃ v, x = some v ∧ Q v bs) ∨ (c = false ∧ x = none ∧ bs = []) := by
  subst hbc
  cases b with
  | true =>
    refine ISound.bind (h rfl) fun a bs hq => ISound.pure ?_
    exact .inl ⟨rfl, a, rfl, by rw [List.append_nil]; exact hq⟩
  | false => exact ISound.pure (.inr ⟨rfl, rfl, rfl⟩)

/-- An optional integer or other part with an encoding. -/
theorem ISound.parseIfEnc {s : Ideal α} {V : Type} (en : V → List Byte) (val : V → α) (ok : V → Prop) (dflt : V) {b : Bool} (c : Bool) (hbc : b = c)
    (h : c = true → ISound cfg s fun a bs => ∃ v, a = val v ∧ bs = en v ∧ ok v) :
    ISound cfg (Perf.parseIf b s) fun x bs => ∃ v, x = optv c (val v) ∧ bs = opt c (en v) ∧ (c = true → ok v) := by
  refine (ISound.parseIf c hbc h).mono ?_
  rintro x bs (⟨rfl, _, rfl, v, rfl, rfl, h⟩ | ⟨rfl, rfl, rfl⟩)
  · exact ⟨v, rfl, rfl, fun _ => h⟩
  · exact ⟨dflt, rfl, rfl, nofun⟩

theorem ISound.if64 (hs : Src cfg o) {b : Bool} (c : Bool) (hbc : b = c) :
    ISound cfg (Perf.parseIf b (parseU64 : Ideal U64)) fun x bs => ∃ v, x = optv c v ∧ bs = opt c (e64 o v) := by
  refine (ISound.parseIfEnc (V := U64) (e64 o) id (fun _ => True) 0#64 c hbc fun _ => (ISound.u64 hs).mono ?_).mono ?_
  · rintro a bs rfl; exact ⟨a, rfl, rfl, trivial⟩
  · rintro a bs ⟨v, h1, h2, _⟩; exact ⟨v, h1, h2⟩

theorem ISound.if32 (hs : Src cfg o) {b : Bool} (c : Bool) (hbc : b = c) :
    ISound cfg (Perf.parseIf b (parseU32 : Ideal U32)) fun x bs => ∃ v, x = optv c v ∧ bs = opt c (e32 o v) := by
  refine (ISound.parseIfEnc (V := U32) (e32 o) id (fun _ => True) 0#32 c hbc fun _ => (ISound.u32 hs).mono ?_).mono ?_
  · rintro a bs rfl; exact ⟨a, rfl, rfl, trivial⟩
  · rintro a bs ⟨v, h1, h2, _⟩; exact ⟨v, h1, h2⟩

/-! ## Variable length parts -/

theorem ISound.rest : ISound cfg Ideal.rest fun a bs => bs = a := by
  intro f a f' _ hr
  unfold Ideal.rest at hr
  split at hr
  · cases hr
    exact ⟨f.bytes, by simp [Input.adv], rfl, rfl⟩
  · cases hr

theorem ISound.name : ISound cfg (ParserM.restTrimNul : Ideal (List Byte)) fun a bs =>
    ∃ n : KName, a = n.text ∧ bs = n.enc ∧ n.text.getLast? ≠ some 0#8 := by
  refine ISound.bind ISound.rest fun a bs h => ISound.pure ?_
  subst h
  obtain ⟨h1, n, h2⟩ := trimNul_inv bs
  have he : KName.enc ⟨trimNul bs, n⟩ = bs := h2.symm
  exact ⟨⟨trimNul bs, n⟩, rfl, by rw [List.append_nil, he], h1⟩

theorem ISound.repeated {item : Ideal T} {en : T → List Byte} (hi : ISound cfg item fun x bs => bs = en x) :
    ∀ n, ISound cfg (Ideal.repeated item n) fun xs bs => bs = xs.flatMap en ∧ xs.length = n
  | 0 => ISound.pure ⟨rfl, rfl⟩
  | n + 1 => by
    refine ISound.bind hi fun x bs hx => ?_
    refine ISound.bind (ISound.repeated hi n) fun xs cs hxs => ISound.pure ?_
    obtain ⟨rfl, h⟩ := hxs
    subst hx
    exact ⟨by simp, by simp [h]⟩

theorem ISound.slice {e : Elem T} {item : Ideal T} {en : T → List Byte} (hi : ISound cfg item fun x bs => bs = en x) (n : Nat) :
    ISound cfg (ParserM.slice e item n : Ideal (List T)) fun xs bs => bs = xs.flatMap en ∧ xs.length = n := by
  intro f a f' hf hr
  have hr : Ideal.slice e item n f = .ok (a, f') := hr
  unfold Ideal.slice at hr
  split at hr
  · cases hr
  · exact ISound.repeated hi n f a f' hf hr

theorem ISound.padded {s : Ideal α} {Q : α → List Byte → Prop} (h : ISound cfg s Q) (n : Nat) (hn : n ≠ 0) :
    ISound cfg (ParserM.padded n s : Ideal α) fun a bs => ∃ x pad, bs = x ++ pad ∧ Q a x ∧ pad.length < n ∧ (x.length + pad.length) % n = 0 := by
  intro f a f' hf hr
  have hr : Ideal.padded n s f = .ok (a, f') := hr
  unfold Ideal.padded at hr
  · rcases hsf : s f with e | ⟨b, g⟩
    · rw [hsf] at hr; cases hr
    · rw [hsf] at hr
      obtain ⟨x, h1, h2, h3⟩ := h f b g hf hsf
      have hoff : g.off - f.off = x.length := by rw [h2]; show f.off + x.length - f.off = _; omega
      simp only [hoff] at hr
      by_cases h0 : x.length % n = 0
      · rw [if_pos h0] at hr
        cases hr
        exact ⟨x, h1, h2, x, [], by simp, h3, by simp; omega, by simpa using h0⟩
      · rw [if_neg h0] at hr
        rcases ht : Ideal.take (n - x.length % n) g with e | ⟨pad, g'⟩
        · rw [ht] at hr; cases hr
        · rw [ht] at hr
          cases hr
          obtain ⟨bs, h4, h5, rfl, h6⟩ := ISound.take (cfg := g.cfg) _ g pad f' rfl ht
          have hlt : x.length % n < n := Nat.mod_lt _ (by omega)
          refine ⟨x ++ bs, by rw [h1, h4, List.append_assoc], ?_, x, bs, rfl, h3, by omega, ?_⟩
          · rw [h5, h2, Input.adv_adv, List.length_append]
          · rw [h6]
            have := Nat.div_add_mod x.length n
            rw [show x.length + (n - x.length % n) = n * (x.length / n) + n by omega, ← Nat.mul_succ, Nat.mul_mod_right]

end Perf
