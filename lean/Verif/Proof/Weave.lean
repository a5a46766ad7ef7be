import Verif.Proof.Sewn
/-!
# The code on pieces of memory

`Weaves F cs v m s`: on a buffer that hands out the pieces `cs`, the code `m` does what the parser over pieces of memory `s` says; `v` is the view of
values without the distinction between borrowed and copied.
-/
namespace Perf
open ParserM
variable {β : Type} [ParseBuf β] [LawfulEof β] {F : List Chunk → β → Prop} {cs : List Chunk} {w : Nat → Nat → Option Nat} {α α' γ γ' T : Type}

/-- `w` says where the bytes of the pieces lie. -/
def Tells (w : Nat → Nat → Option Nat) (cs : List Chunk) : Prop :=
  ∀ i n, i < (chunksData cs).length → i + n ≤ (chunksData cs).length → w i n = lie cs i n

/-- The parser stands for the state `f`; at offset 0 the pieces were `cs`. -/
structure SewnAt (F : List Chunk → β → Prop) (cs : List Chunk) (p : Parser β) (f : Flat) : Prop where
  rep : RepP p f
  sewn : SewnP F cs 0 p
  bytes : f.s.bytes = (chunksData cs).drop f.off
  fin : f.s.fin = .eof

/-- The result of a run, seen through `v`. -/
def Weft (F : List Chunk → β → Prop) (cs : List Chunk) (v : α → α') (o : Out β α) : Except Fault (α' × Flat) → Prop
  | .error e => o.res = .error e
  | .ok (a, f') => ∃ x, o.res = .ok x ∧ v x = a ∧ SewnAt F cs o.st f'

/-- The code does what the parser over pieces of memory says. -/
def Weaves (F : List Chunk → β → Prop) (cs : List Chunk) (v : α → α') (m : P β α) (s : Woven w α') : Prop := ∀ p f, SewnAt F cs p f →
  Weft F cs v (m p) (s f)

theorem SewnAt.adv {p q : Parser β} {f : Flat} (h : SewnAt F cs p f) {n : Nat} (hq : RepP q (f.adv n)) (ho : SewnP F cs 0 q) : SewnAt F cs q (f.adv n) :=
  ⟨hq, ho, by rw [Flat.adv_bytes, h.bytes, List.drop_drop]; rfl, h.fin⟩

/-- The chunk says where bytes lie. -/
theorem SewnAt.chunk (h : SewnBuf F) (hw : Tells w cs) {p : Parser β} {f : Flat} (hp : SewnAt F cs p f) (hne : f.s.bytes ≠ []) :
    ∃ c q, P.chunk p = ⟨.ok c, q, []⟩ ∧ c.data <+: f.s.bytes ∧ SewnAt F cs q f ∧
      (∀ n, n ≤ f.s.bytes.length → w f.off n = match c.loc with
        | .external a => if n ≤ c.data.length then some a else none
        | .temporary => none) ∧
      ∀ k, k ≤ c.data.length → ∃ q', P.advance k q = ⟨.ok (), q', []⟩ ∧ SewnAt F cs q' (f.adv k) := by
  obtain ⟨c, q, hq, hcne, hpre, hal, hrep, hst, hm, hadv⟩ := P.chunk_some hp.rep hne
  obtain ⟨⟨ds, hds⟩, -⟩ := h.pchunk hp.sewn.2 (c := c) (by rw [hq])
  have hqs : (P.chunk p).st = q := by rw [hq]
  have hq0 := (h.stable cs 0).chunk p hp.sewn
  rw [hqs] at hq0
  refine ⟨c, q, hq, hpre, ⟨hrep, hq0, hp.bytes, hp.fin⟩, fun n hn => ?_, fun k hk => ?_⟩
  · have hoff : p.data.offset - 0 = f.off := hp.rep.off
    rw [hoff] at hds
    have hl := congrArg List.length hp.bytes
    rw [List.length_drop] at hl
    have hpos := List.length_pos_iff.2 hne
    rw [hw f.off n (by omega) (by omega), ← Nat.add_zero f.off, ← lie_drop, hds]
    show (if 0 < c.data.length then _ else _) = _
    rw [if_pos (List.length_pos_iff.2 hcne)]
    cases c.loc with
    | temporary => rfl
    | external a => simp only [Nat.zero_add, Nat.add_zero]
  · obtain ⟨q', hq', hrep', -⟩ := hadv k hk
    refine ⟨q', hq', hp.adv hrep' ?_⟩
    have := (h.stable cs 0).advance q k hq0
    rw [hq'] at this
    exact this

set_option linter.unusedSectionVars false

namespace Weaves

theorem pure' {v : α → α'} {a : α} {b : α'} (h : b = v a) : Weaves F cs v (Pure.pure a : P β α) (Pure.pure b : Woven w α') :=
  fun _ _ hp => ⟨a, rfl, h.symm, hp⟩
theorem pure {v : α → α'} (a : α) : Weaves F cs v (Pure.pure a : P β α) (Pure.pure (v a) : Woven w α') := pure' rfl
theorem fault {v : α → α'} (e : Fault) : Weaves F cs v (P.fault e : P β α) (Woven.fault e : Woven w α') := fun _ _ _ => rfl
theorem fail {v : α → α'} (e : ParseError) : Weaves F cs v (ParserM.fail e : P β α) (ParserM.fail e : Woven w α') := fun _ _ _ => rfl
theorem config : Weaves F cs id (ParserM.config : P β ParseConfig) (ParserM.config : Woven w ParseConfig) := fun p _ hp =>
  ⟨p.config, rfl, hp.rep.cfg, hp⟩

theorem bind {v : α → α'} {u : γ → γ'} {m : P β α} {s : Woven w α'} {k : α → P β γ} {k' : α' → Woven w γ'} (h : Weaves F cs v m s)
    (hk : ∀ a, Weaves F cs u (k a) (k' (v a))) : Weaves F cs u (m >>= k) (s >>= k') := by
  intro p f hp
  have h1 := h p f hp
  have hb : (s >>= k') f = match s f with
    | .error e => .error e
    | .ok (a, f') => k' a f' := rfl
  rw [hb]
  rcases hs : s f with e | ⟨a, f'⟩ <;> rw [hs] at h1
  · rw [P.bind_err (P.run_eq _ h1)]
    rfl
  · obtain ⟨x, h2, rfl, h3⟩ := h1
    rw [P.bind_ok (P.run_eq _ h2)]
    exact hk x _ _ h3

theorem ite {v : α → α'} {c : Prop} [Decidable c] {m n : P β α} {s t : Woven w α'} (h1 : Weaves F cs v m s) (h2 : Weaves F cs v n t) :
    Weaves F cs v (if c then m else n) (if c then s else t) := by
  split
  · exact h1
  · exact h2

variable (h : SewnBuf F)
include h

theorem array (n : Nat) : Weaves F cs id (ParserM.array n : P β (List Byte)) (ParserM.array n : Woven w (List Byte)) := by
  intro p f hp
  have h1 := (P.array_takes hp.rep n).1
  have h2 := (Inv.array (h.stable cs 0) n p hp.sewn).1
  show Weft F cs id (P.array n p) (Woven.array (w := w) n f)
  unfold Woven.array Woven.take
  unfold TakesNe at h1
  by_cases he : f.s.bytes = []
  · rw [if_pos he] at h1
    simp only [if_pos he]
    show _ = _; rw [h1, hp.fin]
  · rw [if_neg he] at h1
    simp only [if_neg he]
    obtain ⟨a, rfl, h1⟩ := h1
    unfold Takes at h1
    by_cases hl : n ≤ f.s.bytes.length
    · rw [if_pos hl] at h1
      simp only [if_pos hl]
      exact ⟨_, h1.1, rfl, hp.adv h1.2.1 h2⟩
    · rw [if_neg hl] at h1
      simp only [if_neg hl]
      show _ = _; rw [h1, hp.fin]

theorem ignored (n : Nat) {p : Parser β} {f : Flat} (hp : SewnAt F cs p f) : match Woven.take (w := w) n f with
    | .error e => (P.bytesIgnored n p).res = .error e
    | .ok (_, f') => (P.bytesIgnored n p).res = .ok () ∧ SewnAt F cs (P.bytesIgnored n p).st f' := by
  have h1 := (P.bytesIgnored_takes hp.rep n).1
  have h2 := (Inv.bytesIgnored (h.stable cs 0) n p hp.sewn).1
  unfold Woven.take
  unfold Takes at h1
  by_cases hl : n ≤ f.s.bytes.length
  · rw [if_pos hl] at h1
    simp only [if_pos hl]
    exact ⟨h1.1, hp.adv h1.2.1 h2⟩
  · rw [if_neg hl] at h1
    simp only [if_neg hl]
    rw [h1, hp.fin]

/-- What `parse_bytes_direct` does. -/
theorem direct (hw : Tells w cs) (n : Nat) {p : Parser β} {f : Flat} (hp : SewnAt F cs p f) (he : f.s.bytes ≠ []) :
    match (if n ≤ f.s.bytes.length then w f.off n else none) with
    | some a => ∃ q, P.bytesDirect n p = ⟨.ok (some (a, f.s.bytes.take n)), q, []⟩ ∧ SewnAt F cs q (f.adv n)
    | none => ∃ q, P.bytesDirect n p = ⟨.ok none, q, []⟩ ∧ SewnAt F cs q f := by
  obtain ⟨⟨l, d⟩, q, hq, hpre, hq1, hwl, hadv⟩ := hp.chunk h hw he
  unfold P.bytesDirect
  rw [P.bind_nil hq]
  have hle := hpre.length_le
  dsimp only at hle hadv hwl
  cases l with
  | temporary =>
    have : (if n ≤ f.s.bytes.length then w f.off n else none) = none := by
      split
      · exact hwl n ‹_›
      · rfl
    rw [this]
    exact ⟨q, rfl, hq1⟩
  | external a =>
    have : (if n ≤ f.s.bytes.length then w f.off n else none) = if n ≤ d.length then some a else none := by
      split
      · exact hwl n ‹_›
      · rw [if_neg (by omega)]
    rw [this]
    by_cases hn : n ≤ d.length
    · rw [if_pos hn]
      obtain ⟨q', hq', hq2⟩ := hadv n hn
      refine ⟨q', ?_, hq2⟩
      show (if d.length < n then Pure.pure none else P.advance n >>= fun _ => Pure.pure (some (a, d.take n)) : P β _) q = _
      rw [P.ite_neg (by omega), P.bind_nil hq']
      obtain ⟨t, ht⟩ := hpre
      dsimp only at ht
      rw [← ht, List.take_append_of_le_length hn]
      rfl
    · rw [if_neg hn]
      refine ⟨q, ?_, hq1⟩
      show (if d.length < n then Pure.pure none else P.advance n >>= fun _ => Pure.pure (some (a, d.take n)) : P β _) q = _
      rw [P.ite_pos (by omega)]
      rfl

omit h [LawfulEof β] in
theorem owned_of_none {n : Nat} {p q : Parser β} (hq : P.bytesDirect n p = ⟨.ok none, q, []⟩) {x : Cow Byte} (hx : (P.bytes n p).res = .ok x) :
    ∃ bs, x = .owned bs := by
  unfold P.bytes at hx
  rw [P.bind_nil hq] at hx
  dsimp only at hx
  obtain ⟨hint, h1, h2⟩ := P.bind_res hx
  split at h2
  · obtain ⟨_, _, h3⟩ := P.bind_res h2
    obtain ⟨bs, _, h4⟩ := P.bind_res h3
    cases h4
    exact ⟨bs, rfl⟩
  · obtain ⟨bs, _, h4⟩ := P.bind_res h2
    cases h4
    exact ⟨bs, rfl⟩

/-- What `parse_bytes` returns is borrowed if it lies in one borrowed piece. -/
theorem bytes_as (hw : Tells w cs) (n : Nat) {p : Parser β} {f : Flat} (hp : SewnAt F cs p f) : match Woven.array (w := w) n f with
    | .error e => (P.bytes n p).res = .error e
    | .ok (a, f') => (P.bytes n p).res = .ok (Woven.asRead w f' a) ∧ SewnAt F cs (P.bytes n p).st f' := by
  have h1 := (P.bytes_takes hp.rep n).1
  have h2 := (Inv.bytes (h.stable cs 0) n p hp.sewn).1
  unfold Woven.array Woven.take
  unfold TakesNe at h1
  by_cases he : f.s.bytes = []
  · rw [if_pos he] at h1
    simp only [if_pos he]
    rw [h1, hp.fin]
  · rw [if_neg he] at h1
    simp only [if_neg he]
    obtain ⟨a, ha, h1⟩ := h1
    unfold Takes at h1
    by_cases hl : n ≤ f.s.bytes.length
    · rw [if_pos hl] at h1
      simp only [if_pos hl]
      refine ⟨?_, hp.adv h1.2.1 h2⟩
      rw [h1.1]
      have hd := direct h hw n hp he
      rw [if_pos hl] at hd
      have hlen : (f.s.bytes.take n).length = n := by rw [List.length_take]; omega
      unfold Woven.asRead
      rw [hlen, show (f.adv n).off - n = f.off from Nat.add_sub_cancel ..]
      rcases hwn : w f.off n with - | addr <;> rw [hwn] at hd
      · obtain ⟨q, hq, -⟩ := hd
        obtain ⟨bs, rfl⟩ := owned_of_none hq h1.1
        rw [if_neg (by decide), ← ha]
        rfl
      · obtain ⟨q, hq, -⟩ := hd
        have : (P.bytes n p).res = .ok (.borrowed (f.s.bytes.take n)) := by
          unfold P.bytes
          rw [P.bind_nil hq]
          rfl
        rw [h1.1] at this
        cases this
        rw [if_pos (by rfl)]
    · rw [if_neg hl] at h1
      simp only [if_neg hl]
      rw [h1, hp.fin]

omit h [ParseBuf β] [LawfulEof β] in
theorem asRead_data (w : Nat → Nat → Option Nat) (f : Flat) (c : List T) : (Woven.asRead w f c).data = c := by
  unfold Woven.asRead
  split <;> rfl

theorem bytes (hw : Tells w cs) (n : Nat) : Weaves F cs Cow.data (ParserM.bytes n : P β (Cow Byte)) (ParserM.bytes n : Woven w (List Byte)) := by
  intro p f hp
  have h1 := bytes_as h hw n hp
  show Weft F cs Cow.data (P.bytes n p) (Woven.array (w := w) n f)
  rcases hx : Woven.array (w := w) n f with e | ⟨a, f'⟩ <;> rw [hx] at h1
  · exact h1
  · exact ⟨_, h1.1, asRead_data w f' a, h1.2⟩

theorem rest : Weaves F cs Cow.data (ParserM.rest : P β (Cow Byte)) (ParserM.rest : Woven w (List Byte)) := by
  intro p f hp
  have h1 := Refines.rest p f hp.rep
  have h2 := (Inv.rest (h.stable cs 0) p hp.sewn).1
  show Weft F cs Cow.data (P.rest p) (Woven.rest (w := w) f)
  change Matches _ (P.rest p) (Spec.rest f) at h1
  unfold Spec.rest at h1
  unfold Woven.rest
  by_cases he : f.s.bytes = []
  · simp only [if_pos he] at h1 ⊢
    rw [← hp.fin]
    exact h1
  · have hk : f.s.fin.kind = .eof := by rw [hp.fin]; rfl
    simp only [if_neg he, if_pos hk] at h1 ⊢
    obtain ⟨x, h3, h4, h5⟩ := h1
    exact ⟨x, h3, h4, hp.adv h5 h2⟩

theorem restTrimNul : Weaves F cs Cow.data (ParserM.restTrimNul : P β (Cow Byte)) (ParserM.restTrimNul : Woven w (List Byte)) :=
  bind (v := Cow.data) (rest h) fun c => pure' (Displays.truncate_data c _).symm

theorem padded (n : Nat) {v : α → α'} {m : P β α} {s : Woven w α'} (hm : Weaves F cs v m s) :
    Weaves F cs v (ParserM.padded n m : P β α) (ParserM.padded n s : Woven w α') := by
  intro p f hp
  show Weft F cs v (P.padded n m p) (Woven.padded n s f)
  unfold Woven.padded P.padded
  by_cases h0 : n = 0
  · simp only [if_pos h0]
    rfl
  simp only [if_neg h0]
  rw [P.bind_nil (P.offset_run p)]
  have h1 := hm p f hp
  rcases hs : s f with e | ⟨a, f'⟩ <;> rw [hs] at h1
  · rw [P.bind_err (P.run_eq _ h1)]
    rfl
  · obtain ⟨x, h2, h3, h4⟩ := h1
    rw [P.bind_ok (P.run_eq _ h2), P.bind_nil (P.offset_run _), hp.rep.off, h4.rep.off]
    dsimp only
    by_cases hz : (f'.off - f.off) % n = 0
    · simp only [if_pos hz]
      exact ⟨x, rfl, h3, h4⟩
    · simp only [if_neg hz]
      have h5 := ignored (w := w) h (n - (f'.off - f.off) % n) h4
      rcases ht : Woven.take (w := w) (n - (f'.off - f.off) % n) f' with e | ⟨y, f''⟩ <;> rw [ht] at h5
      · rw [P.bind_err (P.run_eq _ h5)]
        rfl
      · rw [P.bind_ok (P.run_eq _ h5.1)]
        exact ⟨x, rfl, h3, h5.2⟩

omit h in
theorem repeatedLoop {m : P β T} {s : Woven w T} (hm : Weaves F cs id m s) : ∀ n, Weaves F cs id (P.repeatedLoop m n) (Woven.repeated s n)
  | 0 => pure _
  | n + 1 => bind hm fun _ => bind (repeatedLoop hm n) fun _ => pure _

omit h in
theorem copied (size : Nat) {m : P β T} {s : Woven w T} (hm : Weaves F cs id m s) (n : Nat) :
    Weaves F cs Cow.data (P.repeated size m n >>= fun v => Pure.pure (Cow.owned v)) (Woven.repeated s n) := by
  intro p f hp
  have hb : ∃ b, (P.safeCapacityBound size : P β Nat) p = ⟨.ok b, p, []⟩ := by
    unfold P.safeCapacityBound
    split
    · exact ⟨_, rfl⟩
    · exact ⟨_, rfl⟩
  obtain ⟨b, hb⟩ := hb
  have h1 := repeatedLoop hm n p f hp
  have hr : (P.repeated size m n p).res = (P.repeatedLoop m n p).res ∧ (P.repeated size m n p).st = (P.repeatedLoop m n p).st := by
    unfold P.repeated
    rw [P.bind_nil hb, P.bind_ok (P.alloc_run _ p)]
    exact ⟨rfl, rfl⟩
  rcases hs : Woven.repeated s n f with e | ⟨a, f'⟩ <;> rw [hs] at h1
  · rw [P.bind_err (P.run_eq _ (hr.1.trans h1))]
    rfl
  · obtain ⟨x, h2, h3, h4⟩ := h1
    rw [← hr.2] at h4
    rw [P.bind_ok (P.run_eq _ (hr.1.trans h2))]
    exact ⟨_, rfl, h3, h4⟩

theorem slice (hw : Tells w cs) (e : Elem T) (n : Nat) {m : P β T} {s : Woven w T} (hm : Weaves F cs id m s) :
    Weaves F cs Cow.data (ParserM.slice e m n : P β (Cow T)) (ParserM.slice e s n : Woven w (List T)) := by
  intro p f hp
  have hc := copied e.size hm n
  show Weft F cs Cow.data (P.slice e m n p) (Woven.slice e s n f)
  have hdir : ∀ q f', P.sliceDirect e n p = ⟨.ok none, q, []⟩ → SewnAt F cs q f' → Weft F cs Cow.data (P.slice e m n p) (Woven.repeated s n f') := by
    intro q f' hq hat
    unfold P.slice
    rw [P.bind_nil hq]
    exact hc q f' hat
  have hcfg : P.config p = ⟨.ok f.cfg, p, []⟩ := by rw [← hp.rep.cfg]; rfl
  have hsd : P.sliceDirect e n p = (if !f.cfg.endian.isNative then Pure.pure none
      else if n * e.size ≥ usizeLimit then
        P.fail (.custom .invalidRecord "array length in bytes larger than usize::MAX")
      else P.bytesDirect (n * e.size) >>= fun r => match r with
        | none => Pure.pure none
        | some (addr, bs) => if bs = [] ∨ addr % 8 = 0 then Pure.pure (some (e.decodeAll (fromOrder f.cfg.host 64) n bs))
          else Pure.pure none : P β (Option (List T))) p := by
    unfold P.sliceDirect
    rw [P.bind_nil hcfg]
    rfl
  unfold Woven.slice
  by_cases hn : f.cfg.endian.isNative = true
  · simp only [if_pos hn]
    rw [P.ite_neg (by rw [hn]; decide)] at hsd
    by_cases hl : n * e.size ≥ usizeLimit
    · simp only [if_pos hl]
      rw [P.ite_pos hl] at hsd
      unfold P.slice
      rw [P.bind_err (e := .err (.custom .invalidRecord "array length in bytes larger than usize::MAX")) (q := p) (l := []) (by rw [hsd]; rfl)]
      rfl
    simp only [if_neg hl]
    rw [P.ite_neg hl] at hsd
    by_cases he : f.s.bytes = []
    · simp only [if_pos he]
      have hbd : ∃ q, P.bytesDirect (n * e.size) p = ⟨.error (.err .eof), q, []⟩ := by
        obtain ⟨q, hq⟩ := P.chunk_none hp.rep he
        unfold P.bytesDirect
        rw [P.bind_err hq, hp.fin]
        exact ⟨q, rfl⟩
      obtain ⟨q, hq⟩ := hbd
      rw [P.bind_err hq] at hsd
      unfold P.slice
      rw [P.bind_err hsd]
      rfl
    simp only [if_neg he]
    have hd := direct h hw (n * e.size) hp he
    by_cases hle : n * e.size ≤ f.s.bytes.length
    · simp only [if_pos hle] at hd ⊢
      rcases hwn : w f.off (n * e.size) with - | a <;> rw [hwn] at hd
      · obtain ⟨q, hq, hat⟩ := hd
        rw [P.bind_nil hq] at hsd
        exact hdir _ _ hsd hat
      obtain ⟨q, hq, hat⟩ := hd
      rw [P.bind_nil hq] at hsd
      have hiff : (f.s.bytes.take (n * e.size) = [] ∨ a % 8 = 0) ↔ (n * e.size = 0 ∨ a % 8 = 0) := by
        rw [List.take_eq_nil_iff]
        simp [he]
      dsimp only at hsd ⊢
      by_cases hk : n * e.size = 0 ∨ a % 8 = 0
      · simp only [if_pos hk]
        rw [P.ite_pos (hiff.mpr hk)] at hsd
        unfold P.slice
        rw [P.bind_nil hsd]
        exact ⟨_, rfl, rfl, hat⟩
      · simp only [if_neg hk]
        rw [P.ite_neg (fun x => hk (hiff.mp x))] at hsd
        exact hdir _ _ hsd hat
    · simp only [if_neg hle] at hd ⊢
      obtain ⟨q, hq, hat⟩ := hd
      rw [P.bind_nil hq] at hsd
      exact hdir _ _ hsd hat
  · simp only [if_neg hn]
    rw [P.ite_pos (by cases hx : f.cfg.endian.isNative with | true => exact absurd hx hn | false => rfl)] at hsd
    exact hdir _ _ hsd hp

theorem u8 : Weaves F cs id (parseU8 : P β U8) (parseU8 : Woven w U8) := bind (array h 1) fun _ => pure _
theorem u16 : Weaves F cs id (parseU16 : P β U16) (parseU16 : Woven w U16) := bind (array h 2) fun _ => bind config fun _ => pure _
theorem u32 : Weaves F cs id (parseU32 : P β U32) (parseU32 : Woven w U32) := bind (array h 4) fun _ => bind config fun _ => pure _
theorem u64 : Weaves F cs id (parseU64 : P β U64) (parseU64 : Woven w U64) := bind (array h 8) fun _ => bind config fun _ => pure _
omit h in
theorem parseIf {v : α → α'} {m : P β α} {s : Woven w α'} (c : Bool) (hm : Weaves F cs v m s) :
    Weaves F cs (Option.map v) (Perf.parseIf c m) (Perf.parseIf c s) := by
  cases c with
  | true => exact bind hm fun a => pure (v := Option.map v) (some a)
  | false => exact pure (v := Option.map v) none
omit h in
theorem parseIfId {m : P β α} {s : Woven w α} (c : Bool) (hm : Weaves F cs id m s) : Weaves F cs id (Perf.parseIf c m) (Perf.parseIf c s) := by
  cases c with
  | true => exact bind hm fun a => pure (v := id) (some a)
  | false => exact pure (v := id) none

/-- One step of a parser. -/
syntax "weaves_leaf" term:max term:max : tactic
macro_rules | `(tactic| weaves_leaf $h $hw) => `(tactic| first
  | exact Weaves.u64 $h | exact Weaves.u32 $h | exact Weaves.u16 $h | exact Weaves.u8 $h
  | exact Weaves.config
  | exact Weaves.parseIfId _ (Weaves.u64 $h)
  | exact Weaves.parseIfId _ (Weaves.u32 $h)
  | exact Weaves.array $h _ | exact Weaves.bytes $h $hw _ | exact Weaves.rest $h | exact Weaves.restTrimNul $h)

/-- Walk through a `do` block on both sides. -/
syntax "weaves" term:max term:max : tactic
macro_rules | `(tactic| weaves $h $hw) => `(tactic| repeat' (first
  | exact Weaves.fail _
  | exact Weaves.pure _
  | weaves_leaf $h $hw
  | refine Weaves.bind (by weaves_leaf $h $hw) (fun _ => ?_)
  | refine Weaves.ite ?_ ?_))

variable (hw : Tells w cs)
include hw

theorem mmap : Weaves F cs Mmap.view (parseMmap : P β (Mmap Cow)) (parseMmap : Woven w (Mmap List)) := by unfold parseMmap; weaves h hw
theorem lost : Weaves F cs id (parseLost : P β Lost) (parseLost : Woven w Lost) := by unfold parseLost; weaves h hw
theorem comm : Weaves F cs Comm.view (parseComm : P β (Comm Cow)) (parseComm : Woven w (Comm List)) := by unfold parseComm; weaves h hw
theorem exit : Weaves F cs id (parseExit : P β Exit) (parseExit : Woven w Exit) := by unfold parseExit; weaves h hw
theorem throttle : Weaves F cs id (parseThrottle : P β Throttle) (parseThrottle : Woven w Throttle) := by unfold parseThrottle; weaves h hw
theorem mmapDetail : Weaves F cs id (parseMmapDetail : P β MmapDetail) (parseMmapDetail : Woven w MmapDetail) := by unfold parseMmapDetail; weaves h hw
theorem mmap2 : Weaves F cs Mmap2.view (parseMmap2 : P β (Mmap2 Cow)) (parseMmap2 : Woven w (Mmap2 List)) := by
  unfold parseMmap2
  refine bind (u32 h) fun _ => bind (u32 h) fun _ => bind (u64 h) fun _ => bind (u64 h) fun _ => bind (u64 h) fun _ => bind (mmapDetail h hw) fun _ => ?_
  weaves h hw
theorem aux : Weaves F cs id (parseAux : P β Aux) (parseAux : Woven w Aux) := by unfold parseAux; weaves h hw
theorem itraceStart : Weaves F cs id (parseITraceStart : P β ITraceStart) (parseITraceStart : Woven w ITraceStart) := by unfold parseITraceStart; weaves h hw
theorem lostSamples : Weaves F cs id (parseLostSamples : P β LostSamples) (parseLostSamples : Woven w LostSamples) := by unfold parseLostSamples; weaves h hw
theorem switchCpuWide : Weaves F cs id (parseSwitchCpuWide : P β SwitchCpuWide) (parseSwitchCpuWide : Woven w SwitchCpuWide) := by
  unfold parseSwitchCpuWide; weaves h hw
theorem namespaceEntry : Weaves F cs id (parseNamespaceEntry : P β NamespaceEntry) (parseNamespaceEntry : Woven w NamespaceEntry) := by
  unfold parseNamespaceEntry; weaves h hw
theorem namespaces : Weaves F cs Namespaces.view (parseNamespaces : P β (Namespaces Cow)) (parseNamespaces : Woven w (Namespaces List)) :=
  bind (u32 h) fun _ => bind (u32 h) fun _ => bind (u64 h) fun _ => bind (slice h hw _ _ (namespaceEntry h hw)) fun _ => pure _
theorem ksymbol : Weaves F cs KSymbol.view (parseKSymbol : P β (KSymbol Cow)) (parseKSymbol : Woven w (KSymbol List)) := by unfold parseKSymbol; weaves h hw
theorem bpfEvent : Weaves F cs id (parseBpfEvent : P β BpfEvent) (parseBpfEvent : Woven w BpfEvent) := by unfold parseBpfEvent; weaves h hw
theorem cgroup : Weaves F cs CGroup.view (parseCGroup : P β (CGroup Cow)) (parseCGroup : Woven w (CGroup List)) := by unfold parseCGroup; weaves h hw
theorem auxOutputHwId : Weaves F cs id (parseAuxOutputHwId : P β AuxOutputHwId) (parseAuxOutputHwId : Woven w AuxOutputHwId) := by
  unfold parseAuxOutputHwId; weaves h hw

/-- The bytes are split as they were handed out. -/
theorem textPoke : Weaves F cs TextPoke.view (parseTextPoke : P β (TextPoke Cow)) (parseTextPoke : Woven w (TextPoke List)) := by
  unfold parseTextPoke
  refine bind (u64 h) fun addr => bind (u16 h) fun oldLen => bind (u16 h) fun newLen => ?_
  intro p f hp
  dsimp only [id]
  have h1 := bytes_as h hw (roundUpMod (oldLen.toNat + newLen.toNat) 4 8) hp
  have hb : ∀ k : List Byte → Woven w (TextPoke List), ((ParserM.bytes (roundUpMod (oldLen.toNat + newLen.toNat) 4 8) : Woven w (List Byte)) >>= k) f =
      match Woven.array (w := w) (roundUpMod (oldLen.toNat + newLen.toNat) 4 8) f with
      | .error e => .error e
      | .ok (a, f') => k a f' := fun k => by
    show Woven.bind (Woven.array (w := w) _) k f = _
    unfold Woven.bind
    cases Woven.array (w := w) (roundUpMod (oldLen.toNat + newLen.toNat) 4 8) f <;> rfl
  rw [hb]
  rcases hx : Woven.array (w := w) (roundUpMod (oldLen.toNat + newLen.toNat) 4 8) f with e | ⟨bs, g⟩ <;> rw [hx] at h1
  · dsimp only at h1 ⊢
    rw [P.bind_err (P.run_eq ((ParserM.bytes (roundUpMod (oldLen.toNat + newLen.toNat) 4 8) : P β (Cow Byte)) p) h1)]
    rfl
  · dsimp only at h1 ⊢
    obtain ⟨h2, h3⟩ := h1
    rw [P.bind_ok (P.run_eq ((ParserM.bytes (roundUpMod (oldLen.toNat + newLen.toNat) 4 8) : P β (Cow Byte)) p) h2)]
    have hc : ∀ k : List Byte × List Byte → Woven w (TextPoke List), ((ParserM.cowSplitAt bs oldLen.toNat : Woven w (List Byte × List Byte)) >>= k) g =
        match (Woven.asRead w g bs).splitAt oldLen.toNat with
        | some r => k (r.1.data, r.2.data) g
        | none => .error .panic := by
      intro k
      show Woven.bind _ _ _ = _
      unfold Woven.bind
      simp only [ParserM.cowSplitAt]
      cases (Woven.asRead w g bs).splitAt oldLen.toNat <;> rfl
    rw [hc]
    have hd : (ParserM.cowSplitAt (Woven.asRead w g bs) oldLen.toNat : P β (Cow Byte × Cow Byte)) =
        match (Woven.asRead w g bs).splitAt oldLen.toNat with
        | some r => Pure.pure r
        | none => P.fault .panic := by
      cases hx : (Woven.asRead w g bs).splitAt oldLen.toNat <;> (simp only [ParserM.cowSplitAt, hx])
    rw [hd]
    rcases (Woven.asRead w g bs).splitAt oldLen.toNat with - | r
    · rfl
    · refine ⟨_, rfl, ?_, h3⟩
      simp only [TextPoke.view, ParserM.cowTruncate, Displays.truncate_data]

theorem cpu : Weaves F cs id (parseCpu : P β U32) (parseCpu : Woven w U32) := by unfold parseCpu; weaves h hw
theorem sampleId : Weaves F cs id (parseSampleId : P β SampleId) (parseSampleId : Woven w SampleId) := by
  unfold parseSampleId
  refine bind config fun c => ite (pure _) ?_
  refine bind (parseIfId _ (u32 h)) fun _ => bind (parseIfId _ (u32 h)) fun _ => bind (parseIfId _ (u64 h)) fun _ => bind (parseIfId _ (u64 h)) fun _ =>
    bind (parseIfId _ (u64 h)) fun _ => bind (parseIfId _ (cpu h hw)) fun _ => ?_
  weaves h hw
theorem readValue : Weaves F cs id (parseReadValue : P β ReadValue) (parseReadValue : Woven w ReadValue) := by unfold parseReadValue; weaves h hw
theorem readGroup : Weaves F cs ReadGroup.view (parseReadGroup : P β (ReadGroup Cow)) (parseReadGroup : Woven w (ReadGroup List)) := by
  unfold parseReadGroup
  refine bind config fun _ => ite (fail _) (ite (fail _) (bind (u64 h) fun _ => bind (parseIfId _ (u64 h)) fun _ => bind (parseIfId _ (u64 h)) fun _ => ?_))
  exact ite (fail _) (bind (slice h hw _ _ (u64 h)) fun _ => pure _)
theorem read : Weaves F cs id (parseRead : P β Read) (parseRead : Woven w Read) := bind (u32 h) fun _ => bind (u32 h) fun _ => bind (readValue h hw) fun _ => pure _
theorem branchEntry : Weaves F cs id (parseBranchEntry : P β BranchEntry) (parseBranchEntry : Woven w BranchEntry) := by unfold parseBranchEntry; weaves h hw
theorem registers (mask : U64) : Weaves F cs Registers.view (parseRegisters mask : P β (Registers Cow)) (parseRegisters mask : Woven w (Registers List)) :=
  bind (u64 h) fun _ => bind (slice h hw _ _ (u64 h)) fun _ => pure _
theorem registersUser : Weaves F cs Registers.view (parseRegistersUser : P β (Registers Cow)) (parseRegistersUser : Woven w (Registers List)) :=
  bind config fun _ => registers h hw _
theorem registersIntr : Weaves F cs Registers.view (parseRegistersIntr : P β (Registers Cow)) (parseRegistersIntr : Woven w (Registers List)) :=
  bind config fun _ => registers h hw _
theorem values : Weaves F cs ReadGroup.view (parseValues : P β (ReadGroup Cow)) (parseValues : Woven w (ReadGroup List)) :=
  bind config fun _ => ite (readGroup h hw) (bind (readValue h hw) fun _ => pure _)
theorem callchain : Weaves F cs Cow.data (parseCallchain : P β (Cow U64)) (parseCallchain : Woven w (List U64)) := bind (u64 h) fun _ => slice h hw _ _ (u64 h)
theorem rawInner : Weaves F cs Cow.data (parseRawInner : P β (Cow Byte)) (parseRawInner : Woven w (List Byte)) := bind (u32 h) fun _ => bytes h hw _
theorem lbr (b : Bool) : Weaves F cs (fun x => (x.1.data, x.2)) (parseLbr b : P β (Cow BranchEntry × Option U64)) (parseLbr b : Woven w (List BranchEntry × Option U64)) :=
  bind (u64 h) fun _ => bind (parseIfId _ (u64 h)) fun _ => bind (slice h hw _ _ (branchEntry h hw)) fun _ => pure _
theorem dynSize (s : U64) : Weaves F cs id (parseDynSize s : P β U64) (parseDynSize s : Woven w U64) := ite (pure _) (u64 h)
theorem stackUser : Weaves F cs Cow.data (parseStackUser : P β (Cow Byte)) (parseStackUser : Woven w (List Byte)) :=
  bind (u64 h) fun s => bind (bytes h hw _) fun d => bind (dynSize h hw s) fun _ => ite (fail _) (pure' (Displays.truncate_data d _).symm)
theorem auxData : Weaves F cs Cow.data (parseAuxData : P β (Cow Byte)) (parseAuxData : Woven w (List Byte)) := bind (u64 h) fun _ => bytes h hw _

theorem sample : Weaves F cs Sample.view (parseSample : P β (Sample Cow)) (parseSample : Woven w (Sample List)) := by
  unfold parseSample
  refine bind config fun _ => bind (parseIfId _ (u64 h)) fun _ => bind (parseIfId _ (u64 h)) fun _ => bind (parseIfId _ (u32 h)) fun _ =>
    bind (parseIfId _ (u32 h)) fun _ => bind (parseIfId _ (u64 h)) fun _ => bind (parseIfId _ (u64 h)) fun _ => bind (parseIfId _ (u64 h)) fun _ =>
    bind (parseIfId _ (u64 h)) fun _ => bind (parseIfId _ (cpu h hw)) fun _ => bind (parseIfId _ (u64 h)) fun _ => bind (parseIf _ (values h hw)) fun _ =>
    bind (parseIf _ (callchain h hw)) fun _ => bind (parseIf _ (padded h 8 (rawInner h hw))) fun _ => bind (parseIf _ (lbr h hw _)) fun lbr =>
    bind (parseIf _ (registersUser h hw)) fun _ => bind (parseIf _ (stackUser h hw)) fun _ => bind (parseIfId _ (u64 h)) fun _ => bind (parseIfId _ (u64 h)) fun _ =>
    bind (parseIfId _ (u64 h)) fun _ => bind (parseIf _ (registersIntr h hw)) fun _ => bind (parseIfId _ (u64 h)) fun _ => bind (parseIfId _ (u64 h)) fun _ =>
    bind (parseIfId _ (u64 h)) fun _ => bind (parseIfId _ (u64 h)) fun _ => bind (parseIf _ (auxData h hw)) fun _ => pure' ?_
  cases lbr <;> rfl

/-- A body of any type. -/
theorem body (ty : U32) : Weaves F cs Record.view (parseBody ty : P β (Record Cow)) (parseBody ty : Woven w (Record List)) := by
  unfold parseBody
  split
  · exact bind (mmap h hw) fun _ => pure _
  · exact bind (lost h hw) fun _ => pure _
  · exact bind (comm h hw) fun _ => pure _
  · exact bind (exit h hw) fun _ => pure _
  · exact bind (throttle h hw) fun _ => pure _
  · exact bind (throttle h hw) fun _ => pure _
  · exact bind (exit h hw) fun _ => pure _
  · exact bind (read h hw) fun _ => pure _
  · exact bind (sample h hw) fun _ => pure _
  · exact bind (mmap2 h hw) fun _ => pure _
  · exact bind (aux h hw) fun _ => pure _
  · exact bind (itraceStart h hw) fun _ => pure _
  · exact bind (lostSamples h hw) fun _ => pure _
  · exact bind (switchCpuWide h hw) fun _ => pure _
  · exact bind (namespaces h hw) fun _ => pure _
  · exact bind (ksymbol h hw) fun _ => pure _
  · exact bind (bpfEvent h hw) fun _ => pure _
  · exact bind (cgroup h hw) fun _ => pure _
  · exact bind (textPoke h hw) fun _ => pure _
  · exact bind (auxOutputHwId h hw) fun _ => pure _
  · exact bind (rest h) fun _ => pure _

end Weaves
end Perf
