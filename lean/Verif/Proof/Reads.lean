import Verif.Spec.Kernel
import Verif.Proof.Fixed
/-!
# Flat parsers on encoded input

`Reads cfg k s bs tl a`: on an input that starts with `bs` and continues with `tl`, `s` yields `a` and has consumed
exactly `bs`. `k` is the position modulo 8, which matters for slices in native byte order.
-/
namespace Perf
open ParserM
variable {α α' T : Type} {cfg : ParseConfig} {k : Nat} {tl : List Byte}

/-! ## Decoding what was encoded -/

@[simp] theorem digits_length (n v : Nat) : (digits n v).length = n := by
  induction n generalizing v with
  | zero => rfl
  | succ n ih => simp [digits, ih]

theorem leNat_digits (n v : Nat) : leNat (digits n v) = v % 256 ^ n := by
  induction n generalizing v with
  | zero => simp [digits, leNat, Nat.mod_one]
  | succ n ih =>
    simp only [digits, leNat, ih, BitVec.toNat_ofNat]
    have h : v % 256 ^ (n + 1) = v % 256 + 256 * (v / 256 % 256 ^ n) := by rw [Nat.pow_succ', Nat.mod_mul]
    rw [h]

@[simp] theorem enc_length (o : Order) (n v : Nat) : (enc o n v).length = n := by cases o <;> simp [enc]
@[simp] theorem e16_length (o : Order) (x : U16) : (e16 o x).length = 2 := enc_length _ _ _
@[simp] theorem e32_length (o : Order) (x : U32) : (e32 o x).length = 4 := enc_length _ _ _
@[simp] theorem e64_length (o : Order) (x : U64) : (e64 o x).length = 8 := enc_length _ _ _

theorem fromOrder_enc (o : Order) (n : Nat) (x : BitVec (8 * n)) : fromOrder o (8 * n) (enc o n x.toNat) = x := by
  have h : BitVec.ofNat (8 * n) (leNat (digits n x.toNat)) = x := by
    rw [leNat_digits]
    have : (256 : Nat) ^ n = 2 ^ (8 * n) := by rw [Nat.pow_mul]
    rw [this, Nat.mod_eq_of_lt x.isLt]
    simp
  cases o with
  | little => exact h
  | big =>
    show BitVec.ofNat _ (leNat (digits n x.toNat).reverse.reverse) = x
    rw [List.reverse_reverse]
    exact h

/-- The configuration decodes integers of byte order `o`. -/
structure Src (cfg : ParseConfig) (o : Order) : Prop where
  conv16 : ∀ x, cfg.endian.conv16 (e16 o x) = x
  conv32 : ∀ x, cfg.endian.conv32 (e32 o x) = x
  conv64 : ∀ x, cfg.endian.conv64 (e64 o x) = x

theorem Src.of (o : Order) (h16 : cfg.endian.conv16 = fromOrder o 16) (h32 : cfg.endian.conv32 = fromOrder o 32)
    (h64 : cfg.endian.conv64 = fromOrder o 64) : Src cfg o where
  conv16 x := by rw [h16]; exact fromOrder_enc o 2 x
  conv32 x := by rw [h32]; exact fromOrder_enc o 4 x
  conv64 x := by rw [h64]; exact fromOrder_enc o 8 x

/-- `Native` reads the host's byte order. -/
theorem Src.native (c : RawParseConfig) (host : Order) : Src ⟨c, Endian.native host, host⟩ host := Src.of _ rfl rfl rfl
/-- `Little` reads little endian data on any host. -/
theorem Src.little (c : RawParseConfig) (host : Order) : Src ⟨c, Endian.little host, host⟩ .little := Src.of _ rfl rfl rfl
/-- `Big` reads big endian data on any host. -/
theorem Src.big (c : RawParseConfig) (host : Order) : Src ⟨c, Endian.big host, host⟩ .big := Src.of _ rfl rfl rfl
/-- `Dynamic` reads the byte order it was made with. -/
theorem Src.dynamic (c : RawParseConfig) (o host : Order) : Src ⟨c, Endian.dynamic o host, host⟩ o := by
  cases o <;> exact Src.of _ rfl rfl rfl

/-! ## `Reads` -/

/-- Borrowed data is at an address congruent to `k` modulo 8. -/
def AlMod (al : Al) (k : Nat) : Prop :=
  match al with
  | .unknown => False
  | .temp => True
  | .at n => n % 8 = k % 8

theorem AlMod.add {al : Al} {k : Nat} (h : AlMod al k) (j : Nat) : AlMod (al.add j) (k + j) := by
  cases al with
  | unknown => exact h
  | temp => trivial
  | «at» n => simp only [AlMod, Al.add] at h ⊢; omega

theorem AlMod.congr {al : Al} {k k' : Nat} (hk : k % 8 = k' % 8) (h : AlMod al k) : AlMod al k' := by
  cases al with
  | unknown => exact h
  | temp => trivial
  | «at» n => simp only [AlMod] at h ⊢; omega

/-- What a parser needs to know besides the bytes: the alignment of the input (slices in native byte order), and that
its end is reported as end of file (`parse_rest`). -/
structure Needs where
  al : Bool
  eof : Bool

/-- See the top of the file. -/
def Reads (cfg : ParseConfig) (nd : Needs) (k : Nat) (s : Spec α) (bs tl : List Byte) (a : α) : Prop :=
  ∀ f : Flat, f.cfg = cfg → (nd.eof = true → f.s.fin.kind = .eof) →
    (nd.al = true → cfg.endian.isNative = true → AlMod f.s.al k) →
    f.s.bytes = bs ++ tl → s f = .ok (a, f.adv bs.length)

variable {nd : Needs}

theorem Reads.congr {s : Spec α} {bs bs' : List Byte} {a a' : α} (h : Reads cfg nd k s bs tl a) (hb : bs = bs')
    (ha : a = a') : Reads cfg nd k s bs' tl a' := by
  subst hb; subst ha; exact h

theorem Reads.pure (a : α) : Reads cfg nd k (Pure.pure a : Spec α) [] tl a := by
  intro f _ _ _ _
  simp [Spec.pure_run]

theorem Reads.pure' {a b : α} (h : a = b) : Reads cfg nd k (Pure.pure a : Spec α) [] tl b := h ▸ Reads.pure a

theorem Reads.bind {s : Spec α} {c : α → Spec α'} {bs bs' : List Byte} {a : α} {b : α'}
    (h : Reads cfg nd k s bs (bs' ++ tl) a) (hc : Reads cfg nd (k + bs.length) (c a) bs' tl b) :
    Reads cfg nd k (s >>= c) (bs ++ bs') tl b := by
  intro f hf he' ha hb
  rw [List.append_assoc] at hb
  rw [Spec.bind_ok (h f hf he' ha hb), hc (f.adv bs.length) hf he' (fun h1 h2 => (ha h1 h2).add _) (by simp [hb]),
    Flat.adv_adv, List.length_append]

/-- The last parser of a sequence. -/
theorem Reads.last {s : Spec α} {c : α → Spec α'} {bs : List Byte} {a : α} {b : α'}
    (h : Reads cfg nd k s bs tl a) (hc : ∀ k, Reads cfg nd k (c a) [] tl b) :
    Reads cfg nd k (s >>= c) bs tl b := by
  have := Reads.bind (bs' := []) (tl := tl) h (hc _)
  rwa [List.append_nil] at this

theorem Reads.mod {s : Spec α} {k' : Nat} {bs : List Byte} {a : α} (hk : k % 8 = k' % 8) (h : Reads cfg nd k s bs tl a) :
    Reads cfg nd k' s bs tl a :=
  fun f hf he' ha hb => h f hf he' (fun h1 h2 => (ha h1 h2).congr hk.symm) hb

/-- A sequence of parsers of multiples of 8 bytes. -/
theorem Reads.step {s : Spec α} {c : α → Spec α'} {bs bs' : List Byte} {a : α} {b : α'}
    (h : Reads cfg nd 0 s bs (bs' ++ tl) a) (hl : bs.length % 8 = 0) (hc : Reads cfg nd 0 (c a) bs' tl b) :
    Reads cfg nd 0 (s >>= c) (bs ++ bs') tl b :=
  Reads.bind h (hc.mod (by omega))

theorem Reads.config {c : ParseConfig → Spec α} {bs : List Byte} {a : α} (h : Reads cfg nd k (c cfg) bs tl a) :
    Reads cfg nd k ((ParserM.config : Spec ParseConfig) >>= c) bs tl a := by
  intro f hf he' ha hb
  have : ((ParserM.config : Spec ParseConfig) >>= c) f = c f.cfg f := rfl
  rw [this, hf]
  exact h f hf he' ha hb

theorem Reads.array {n : Nat} {bs : List Byte} (hn : bs.length = n) (h0 : bs ++ tl ≠ []) :
    Reads cfg nd k (Spec.bytes n) bs tl bs := by
  intro f _ _ _ hb
  unfold Spec.bytes Spec.take
  rw [if_neg (by rw [hb]; exact h0), if_pos (by rw [hb]; simp; omega), hb, ← hn]
  simp

theorem ne_nil_of_length {bs tl : List Byte} {n : Nat} (h : bs.length = n) (h0 : 0 < n) : bs ++ tl ≠ [] := by
  intro he
  rw [List.append_eq_nil_iff] at he
  rw [he.1] at h
  simp at h
  omega

theorem Reads.u8 (x : U8) : Reads cfg nd k (parseU8 : Spec U8) [x] tl x := by
  have h := Reads.array (cfg := cfg) (nd := nd) (k := k) (tl := tl) (bs := [x]) (n := 1) rfl (by simp)
  refine Reads.last h fun _ => Reads.pure' ?_
  simp [fromLE, leNat]

theorem Reads.u16 {o : Order} (hs : Src cfg o) (x : U16) : Reads cfg nd k (parseU16 : Spec U16) (e16 o x) tl x := by
  have h := Reads.array (cfg := cfg) (nd := nd) (k := k) (tl := tl) (e16_length o x)
    (ne_nil_of_length (e16_length o x) (by omega))
  exact Reads.last h fun _ => Reads.config (Reads.pure' (hs.conv16 x))

theorem Reads.u32 {o : Order} (hs : Src cfg o) (x : U32) : Reads cfg nd k (parseU32 : Spec U32) (e32 o x) tl x := by
  have h := Reads.array (cfg := cfg) (nd := nd) (k := k) (tl := tl) (e32_length o x)
    (ne_nil_of_length (e32_length o x) (by omega))
  exact Reads.last h fun _ => Reads.config (Reads.pure' (hs.conv32 x))

theorem Reads.u64 {o : Order} (hs : Src cfg o) (x : U64) : Reads cfg nd k (parseU64 : Spec U64) (e64 o x) tl x := by
  have h := Reads.array (cfg := cfg) (nd := nd) (k := k) (tl := tl) (e64_length o x)
    (ne_nil_of_length (e64_length o x) (by omega))
  exact Reads.last h fun _ => Reads.config (Reads.pure' (hs.conv64 x))

/-- An optional part: `b` is the code's test, `c` the kernel's flag. -/
theorem Reads.parseIf {s : Spec α} {bs : List Byte} {a : α} {b : Bool} (c : Bool) (hbc : b = c)
    (h : c = true → Reads cfg nd k s bs tl a) :
    Reads cfg nd k (Perf.parseIf b s) (opt c bs) tl (optv c a) := by
  subst hbc
  cases b with
  | true => exact Reads.last (h rfl) fun _ => Reads.pure _
  | false => exact Reads.pure _

/-- The rest of the input. -/
theorem Reads.rest {bs : List Byte} (hn : nd.eof = true) (h : bs ≠ []) : Reads cfg nd k Spec.rest bs [] bs := by
  intro f _ he' _ hb
  rw [List.append_nil] at hb
  unfold Spec.rest
  rw [if_neg (by rw [hb]; exact h), if_pos (he' hn), hb]

theorem trimNul_pad (text : List Byte) (n : Nat) (h : text.getLast? ≠ some 0#8) :
    trimNul (text ++ List.replicate n 0#8) = text := by
  unfold trimNul
  rw [List.reverse_append, List.reverse_replicate]
  have h1 : ∀ l : List Byte, (List.replicate n 0#8 ++ l).dropWhile (· == 0#8) = l.dropWhile (· == 0#8) := by
    intro l
    induction n with
    | zero => rfl
    | succ n ih => rw [List.replicate_succ, List.cons_append, List.dropWhile_cons]; simpa using ih
  rw [h1]
  have h2 : text.reverse.dropWhile (· == 0#8) = text.reverse := by
    cases hr : text.reverse with
    | nil => rfl
    | cons x xs =>
      have : text.getLast? = some x := by rw [← List.head?_reverse, hr]; rfl
      rw [this] at h
      rw [List.dropWhile_cons]
      have hx : (x == 0#8) = false := by rw [beq_eq_false_iff_ne]; intro h'; exact h (by rw [h'])
      simp [hx]
  rw [h2, List.reverse_reverse]

/-- A name up to the end of the input. -/
theorem Reads.name {n : KName} (hn : nd.eof = true) (h : n.Ok) : Reads cfg nd k (ParserM.restTrimNul : Spec (List Byte)) n.enc [] n.text :=
  Reads.last (Reads.rest hn h.2) fun _ => Reads.pure' (trimNul_pad _ _ h.1)

/-- Items one after the other. -/
theorem Reads.repeated {item : Spec T} {en : T → List Byte} (hi : ∀ x k tl, Reads cfg nd k item (en x) tl x) :
    ∀ (xs : List T) (k : Nat) (tl : List Byte), Reads cfg nd k (Spec.repeated item xs.length) (xs.flatMap en) tl xs := by
  intro xs
  induction xs with
  | nil => intro k tl; exact Reads.pure _
  | cons x xs ih =>
    intro k tl
    rw [List.flatMap_cons]
    refine Reads.bind (hi x _ _) ?_
    exact Reads.last (ih _ _) fun _ => Reads.pure _

/-- A counted slice of items that starts at a multiple of 8. -/
theorem Reads.slice {e : Elem T} {item : Spec T} {en : T → List Byte} (hi : ∀ x k tl, Reads cfg nd k item (en x) tl x)
    (he : ∀ x, (en x).length = e.size) (h0 : 0 < e.size) (xs : List T) {n : Nat} (hn : n = xs.length) (hk : k % 8 = 0) (hal : nd.al = true)
    (hlim : (xs.flatMap en).length < usizeLimit) (hend : cfg.endian.isNative = true → xs = [] → tl ≠ []) :
    Reads cfg nd k (ParserM.slice e item n : Spec (List T)) (xs.flatMap en) tl xs := by
  subst hn
  have hlen : (xs.flatMap en).length = xs.length * e.size := by
    clear hlim hend
    induction xs with
    | nil => simp
    | cons x xs ih => rw [List.flatMap_cons, List.length_append, ih, he, List.length_cons, Nat.succ_mul]; omega
  intro f hf he' ha hb
  have hrep := Reads.repeated hi xs k tl f hf he' ha hb
  show Spec.slice e item xs.length f = _
  unfold Spec.slice
  rw [hf]
  by_cases hnat : cfg.endian.isNative = true
  · have hlim' : ¬ xs.length * e.size ≥ usizeLimit := by omega
    simp only [hnat, if_true, if_neg hlim']
    have hal' : f.s.al.aligned = true := by
      have := ha hal hnat
      cases h' : f.s.al with
      | unknown => rw [h'] at this; exact this.elim
      | temp => rfl
      | «at» n => rw [h'] at this; simp only [AlMod] at this; simp only [Al.aligned, beq_iff_eq]; omega
    by_cases hx : f.s.bytes = []
    · exfalso
      rw [hx] at hb
      have := List.append_eq_nil_iff.1 hb.symm
      cases xs with
      | nil => exact hend hnat rfl this.2
      | cons x xs =>
        have h2 := this.1
        rw [List.flatMap_cons, List.append_eq_nil_iff] at h2
        have h3 := he x
        rw [h2.1] at h3
        simp at h3
        omega
    · simp only [if_neg hx, hal', Bool.true_eq_false, and_false, if_false]
      exact hrep
  · simp only [Bool.not_eq_true] at hnat
    simp only [hnat, Bool.false_eq_true, if_false]
    exact hrep

end Perf
