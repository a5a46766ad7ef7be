import Verif.Proof.Prefix
import Verif.Props.Fast
import Verif.Props.Streams
/-!
# C09 and the second half of C57: a record is read from its own bytes
-/
namespace Perf
variable {O : Type}

/-- The bytes `r` hold a complete record: a header and at least as many bytes as it announces. -/
def Complete (cfg : ParseConfig) (r : List Byte) : Prop :=
  8 ≤ r.length ∧ (cfg.endian.conv16 ((r.drop 6).take 2)).toNat ≤ r.length

theorem Complete.fits {β : Type} [ParseBuf β] [Lawful β] {p : Parser β} {f : Flat} (hp : RepP p f) {r t : List Byte}
    (hf : f.s.bytes = r ++ t) (hc : Complete f.cfg r) {k : Nat} (hk : r.length ≤ k) :
    ∀ hd, ((parseHeader : P β Header) p).res = .ok hd → hd.size.toNat ≤ k := by
  obtain ⟨q, h1, _, _⟩ := P.header_run hp (by rw [hf, List.length_append]; have := hc.1; omega)
  intro hd h
  rw [h1] at h
  cases h
  have e : (f.s.bytes.drop 6).take 2 = (r.drop 6).take 2 := by
    rw [hf, List.drop_append_of_le_length (by have := hc.1; omega), List.take_append_of_le_length]
    have := hc.1
    simp; omega
  show (f.cfg.endian.conv16 ((f.s.bytes.drop 6).take 2)).toNat ≤ k
  rw [e]
  have := hc.2
  omega

/-! ## Slices -/

/-- Two slices at the same address with the same next `k` bytes. -/
def SliceAgree (k : Nat) (s t : Slice) : Prop :=
  s.addr = t.addr ∧ k ≤ s.data.length ∧ k ≤ t.data.length ∧ s.data.take k = t.data.take k

theorem SliceAgree.agree : BufAgree SliceAgree := by
  intro k s t h hk
  obtain ⟨h1, h2, h3, h4⟩ := h
  have hs : s.data ≠ [] := by intro e; rw [e] at h2; simp at h2; omega
  have ht : t.data ≠ [] := by intro e; rw [e] at h3; simp at h3; omega
  refine ⟨⟨.external s.addr, s.data⟩, ⟨.external t.addr, t.data⟩, ?_, ?_, by rw [h1], hs, ht, h4, ⟨h1, h2, h3, h4⟩, Nat.le_refl _,
    Nat.le_refl _, fun n hn hx hy => ?_⟩
  · show (if s.data = [] then _ else _) = _; rw [if_neg hs]
  · show (if t.data = [] then _ else _) = _; rw [if_neg ht]
  · refine ⟨⟨s.addr + n, s.data.drop n⟩, ⟨t.addr + n, t.data.drop n⟩, ?_, ?_, ⟨?_, ?_, ?_, ?_⟩, ?_, ?_⟩
    · show (if n ≤ s.data.length then some (⟨s.addr + n, s.data.drop n⟩ : Slice) else none) = _; rw [if_pos hx]
    · show (if n ≤ t.data.length then some (⟨t.addr + n, t.data.drop n⟩ : Slice) else none) = _; rw [if_pos hy]
    · show s.addr + n = t.addr + n; rw [h1]
    · show k - n ≤ (s.data.drop n).length; rw [List.length_drop]; omega
    · show k - n ≤ (t.data.drop n).length; rw [List.length_drop]; omega
    · show (s.data.drop n).take (k - n) = (t.data.drop n).take (k - n)
      have := congrArg (List.drop n) h4
      rwa [List.drop_take, List.drop_take] at this
    · show (s.data.drop n).length + n ≤ s.data.length; rw [List.length_drop]; omega
    · show (t.data.drop n).length + n ≤ t.data.length; rw [List.length_drop]; omega

/-- **C09** for a slice: what follows the record never matters. -/
theorem c09_slice (addr : Nat) (r t₁ t₂ : List Byte) {cfg : ParseConfig} (hw : cfg.Wf) (hc : Complete cfg r) (v : Visitor Cow O) :
    (P.record v (Parser.new (⟨addr, r ++ t₁⟩ : Slice) cfg)).res = (P.record v (Parser.new (⟨addr, r ++ t₂⟩ : Slice) cfg)).res :=
  (SliceAgree.agree.record (k := r.length) hc.1 (p := Parser.new ⟨addr, r ++ t₁⟩ cfg) (q := Parser.new ⟨addr, r ++ t₂⟩ cfg)
    ⟨⟨rfl, by simp [Parser.new], by simp [Parser.new], by simp [Parser.new]⟩, rfl, rfl⟩ v
    (Complete.fits (RepP.slice addr (r ++ t₁) hw) rfl hc (Nat.le_refl _))).1

/-! ## Readers -/

/-- Two lists of `read` results that deliver the same next `k` bytes in the same portions (the last portion may go on
differently). -/
inductive ScriptAgree : Nat → List ReadEvent → List ReadEvent → Prop
  | done (s t) : ScriptAgree 0 s t
  | data {k : Nat} {x y s t} : x ≠ [] → y ≠ [] → x.take k = y.take k → ScriptAgree (k - x.length) s t →
    ScriptAgree k (.data x :: s) (.data y :: t)

/-- The same for readers with something left in their buffers. -/
def ReaderAgree (k : Nat) (b c : BufReader) : Prop :=
  b.buf.take k = c.buf.take k ∧ ScriptAgree (k - b.buf.length) b.script c.script

theorem ReaderAgree.full {k : Nat} {x y : List Byte} {s t : List ReadEvent}
    (h : x.take k = y.take k) (hs : ScriptAgree (k - x.length) s t) :
    ReaderAgree k ⟨x, s⟩ ⟨y, t⟩ ∧ ∀ n, n ≤ k → n ≤ x.length → n ≤ y.length →
      ∃ b' c', ParseBuf.advance (⟨x, s⟩ : BufReader) n = some b' ∧ ParseBuf.advance (⟨y, t⟩ : BufReader) n = some c' ∧
        ReaderAgree (k - n) b' c' ∧ ParseBuf.steps b' + n ≤ ParseBuf.steps (⟨x, s⟩ : BufReader) ∧
        ParseBuf.steps c' + n ≤ ParseBuf.steps (⟨y, t⟩ : BufReader) := by
  refine ⟨⟨h, hs⟩, fun n h1 h2 h3 => ⟨⟨x.drop n, s⟩, ⟨y.drop n, t⟩, rfl, rfl, ⟨?_, ?_⟩, ?_, ?_⟩⟩
  · have := congrArg (List.drop n) h
    rwa [List.drop_take, List.drop_take] at this
  · show ScriptAgree (k - n - (x.drop n).length) s t
    rw [List.length_drop, show k - n - (x.length - n) = k - x.length by omega]; exact hs
  · show (x.drop n).length + ReadEvent.bytes s + n ≤ x.length + ReadEvent.bytes s; rw [List.length_drop]; omega
  · show (y.drop n).length + ReadEvent.bytes t + n ≤ y.length + ReadEvent.bytes t; rw [List.length_drop]; omega

theorem ReaderAgree.agree : BufAgree ReaderAgree := by
  intro k b c h hk
  obtain ⟨bb, bs⟩ := b
  obtain ⟨cb, cs⟩ := c
  obtain ⟨h1, h2⟩ := h
  dsimp only at h1 h2
  have hfill : ∀ (x : List Byte) (s : List ReadEvent), x ≠ [] →
      ParseBuf.chunk (⟨x, s⟩ : BufReader) = (.ok ⟨.temporary, x⟩, ⟨x, s⟩) := by
    intro x s hx
    obtain ⟨a, l, rfl⟩ := List.exists_cons_of_ne_nil hx
    rfl
  have hfill0 : ∀ (x : List Byte) (s : List ReadEvent), x ≠ [] →
      ParseBuf.chunk (⟨[], .data x :: s⟩ : BufReader) = (.ok ⟨.temporary, x⟩, ⟨x, s⟩) := by
    intro x s hx
    obtain ⟨a, l, rfl⟩ := List.exists_cons_of_ne_nil hx
    rfl
  by_cases hb : bb = []
  · have hcb : cb = [] := by
      subst hb
      rcases cb with - | ⟨a, l⟩
      · rfl
      · rw [show k = (k - 1) + 1 by omega] at h1; simp at h1
    subst hb hcb
    simp only [List.length_nil, Nat.sub_zero] at h2
    cases h2 with
    | done => omega
    | data hx hy ht hs =>
      rename_i x y s t
      rw [hfill0 x s hx, hfill0 y t hy]
      obtain ⟨g1, g2⟩ := ReaderAgree.full ht hs
      exact ⟨_, _, rfl, rfl, rfl, hx, hy, ht, g1, by simp [ParseBuf.steps, ReadEvent.bytes], by simp [ParseBuf.steps, ReadEvent.bytes], g2⟩
  · have hcb : cb ≠ [] := by
      intro e
      subst e
      obtain ⟨a, l, rfl⟩ := List.exists_cons_of_ne_nil hb
      rw [show k = (k - 1) + 1 by omega] at h1; simp at h1
    rw [hfill bb bs hb, hfill cb cs hcb]
    obtain ⟨g1, g2⟩ := ReaderAgree.full h1 h2
    exact ⟨_, _, rfl, rfl, rfl, hb, hcb, h1, g1, Nat.le_refl _, Nat.le_refl _, g2⟩

/-- A common beginning of the scripts. -/
theorem ScriptAgree.prefix : ∀ (ds : List (List Byte)), (∀ d ∈ ds, d ≠ []) → ∀ s t,
    ScriptAgree ds.flatten.length (ds.map ReadEvent.data ++ s) (ds.map ReadEvent.data ++ t)
  | [], _, s, t => .done s t
  | d :: ds, h, s, t => by
    refine .data (h d (List.mem_cons_self ..)) (h d (List.mem_cons_self ..)) rfl ?_
    have := ScriptAgree.prefix ds (fun x hx => h x (List.mem_cons_of_mem _ hx)) s t
    simpa using this

theorem scriptBytes_prefix : ∀ (ds : List (List Byte)), (∀ d ∈ ds, d ≠ []) → ∀ s,
    scriptBytes (ds.map ReadEvent.data ++ s) = ds.flatten ++ scriptBytes s
  | [], _, s => rfl
  | d :: ds, h, s => by
    obtain ⟨a, l, rfl⟩ := List.exists_cons_of_ne_nil (h d (List.mem_cons_self ..))
    have := scriptBytes_prefix ds (fun x hx => h x (List.mem_cons_of_mem _ hx)) s
    simp [scriptBytes, this]

/-- **C09** for a reader: whatever the `read` calls answer once the record's bytes have been delivered. -/
theorem c09_reader (ds : List (List Byte)) (hne : ∀ d ∈ ds, d ≠ []) (s t : List ReadEvent) {cfg : ParseConfig} (hw : cfg.Wf)
    (hc : Complete cfg ds.flatten) (v : Visitor Cow O) :
    (P.record v (Parser.new (⟨[], ds.map ReadEvent.data ++ s⟩ : BufReader) cfg)).res =
      (P.record v (Parser.new (⟨[], ds.map ReadEvent.data ++ t⟩ : BufReader) cfg)).res :=
  (ReaderAgree.agree.record (k := ds.flatten.length) hc.1 (p := Parser.new ⟨[], ds.map ReadEvent.data ++ s⟩ cfg)
    (q := Parser.new ⟨[], ds.map ReadEvent.data ++ t⟩ cfg) ⟨⟨rfl, ScriptAgree.prefix ds hne s t⟩, rfl, rfl⟩ v
    (Complete.fits (RepP.reader _ hw) (scriptBytes_prefix ds hne s) hc (Nat.le_refl _))).1

/-- **C09** for a reader whose last portion of the record also holds what follows it. -/
theorem c09_reader_shared (ds : List (List Byte)) (hne : ∀ d ∈ ds, d ≠ []) (r t₁ t₂ : List Byte) (hr : r ≠ []) (s t : List ReadEvent)
    {cfg : ParseConfig} (hw : cfg.Wf) (hc : Complete cfg (ds.flatten ++ r)) (v : Visitor Cow O) :
    (P.record v (Parser.new (⟨[], ds.map ReadEvent.data ++ .data (r ++ t₁) :: s⟩ : BufReader) cfg)).res =
      (P.record v (Parser.new (⟨[], ds.map ReadEvent.data ++ .data (r ++ t₂) :: t⟩ : BufReader) cfg)).res := by
  have hs : ∀ ds : List (List Byte), (∀ d ∈ ds, d ≠ []) → ScriptAgree (ds.flatten ++ r).length
      (ds.map ReadEvent.data ++ .data (r ++ t₁) :: s) (ds.map ReadEvent.data ++ .data (r ++ t₂) :: t) := by
    intro ds h
    induction ds with
    | nil =>
      refine .data (by simp [hr]) (by simp [hr]) (by simp) ?_
      have e : (([] : List (List Byte)).flatten ++ r).length - (r ++ t₁).length = 0 := by simp
      rw [e]
      exact .done _ _
    | cons d ds ih =>
      refine .data (h d (List.mem_cons_self ..)) (h d (List.mem_cons_self ..)) rfl ?_
      have := ih fun x hx => h x (List.mem_cons_of_mem _ hx)
      rw [show ((d :: ds).flatten ++ r).length - d.length = (ds.flatten ++ r).length by
        simp only [List.flatten_cons, List.length_append]; omega]
      exact this
  refine (ReaderAgree.agree.record (k := (ds.flatten ++ r).length) hc.1
    (p := Parser.new ⟨[], ds.map ReadEvent.data ++ .data (r ++ t₁) :: s⟩ cfg)
    (q := Parser.new ⟨[], ds.map ReadEvent.data ++ .data (r ++ t₂) :: t⟩ cfg) ⟨⟨rfl, hs ds hne⟩, rfl, rfl⟩ v
    (Complete.fits (RepP.reader _ hw) (t := t₁ ++ scriptBytes s) ?_ hc (Nat.le_refl _))).1
  show scriptBytes _ = _
  rw [scriptBytes_prefix ds hne]
  obtain ⟨a, l, e⟩ := List.exists_cons_of_ne_nil hr
  simp [e, scriptBytes]

/-! ## Borrowed pieces -/

inductive PiecesAgree : Nat → List Slice → List Slice → Prop
  | done (s t) : PiecesAgree 0 s t
  | piece {k : Nat} {x y : Slice} {s t} : x.data ≠ [] → y.data ≠ [] → x.addr = y.addr → x.data.take k = y.data.take k →
    PiecesAgree (k - x.data.length) s t → PiecesAgree k (x :: s) (y :: t)

theorem ChunkBuf.advLoop_cost_zero : ∀ s : List Slice, ChunkBuf.cost (ChunkBuf.advLoop s 0) ≤ ChunkBuf.cost s
  | [] => Nat.le_refl _
  | p :: s => by
    rw [ChunkBuf.advLoop]
    split
    · simp [ChunkBuf.cost]
    · rw [Nat.zero_sub]
      have := ChunkBuf.advLoop_cost_zero s
      rw [ChunkBuf.cost]; omega

theorem ChunkBuf.advLoop_cost (x : Slice) (s : List Slice) (n : Nat) (h : n ≤ x.data.length) :
    ChunkBuf.cost (ChunkBuf.advLoop (x :: s) n) + n ≤ ChunkBuf.cost (x :: s) := by
  rw [ChunkBuf.advLoop]
  split
  · simp only [ChunkBuf.cost, List.length_drop]; omega
  · rw [show n - x.data.length = 0 by omega]
    have := ChunkBuf.advLoop_cost_zero s
    rw [ChunkBuf.cost]; omega

theorem PiecesAgree.agree : BufAgree fun k (b c : ChunkBuf) => PiecesAgree k b.pieces c.pieces := by
  intro k b c h hk
  obtain ⟨bs⟩ := b
  obtain ⟨cs⟩ := c
  cases h with
  | done => omega
  | piece hx hy ha ht hs =>
    rename_i x y s t
    refine ⟨⟨.external x.addr, x.data⟩, ⟨.external y.addr, y.data⟩, rfl, rfl, by rw [ha], hx, hy, ht, .piece hx hy ha ht hs,
      Nat.le_refl _, Nat.le_refl _, fun n hn h1 h2 => ⟨_, _, rfl, rfl, ?_, ?_, ?_⟩⟩
    · have h1 : n ≤ x.data.length := h1
      have h2 : n ≤ y.data.length := h2
      have hxy : min x.data.length k = min y.data.length k := (take_agree ht (Nat.le_refl k)).2
      show PiecesAgree (k - n) (ChunkBuf.advLoop (x :: s) n) (ChunkBuf.advLoop (y :: t) n)
      have hx0 := List.length_pos_iff.mpr hx
      by_cases he : n = k
      · rw [he, Nat.sub_self]; exact .done _ _
      · have hadv : ∀ (s : List Slice), ChunkBuf.advLoop s 0 = s.dropWhile (fun p => p.data.length = 0) := by
          intro s
          induction s with
          | nil => rfl
          | cons p s ih =>
            rw [ChunkBuf.advLoop]
            by_cases hp : 0 < p.data.length
            · rw [if_pos hp, List.dropWhile_cons_of_neg (by simp; intro h; rw [h] at hp; exact absurd hp (by simp))]; rfl
            · rw [if_neg hp, List.dropWhile_cons_of_pos (by simp; exact List.length_eq_zero_iff.mp (by omega)), Nat.zero_sub, ih]
        rw [ChunkBuf.advLoop, ChunkBuf.advLoop]
        by_cases hl : n < x.data.length
        · have hl' : n < y.data.length := by omega
          rw [if_pos hl, if_pos hl']
          refine .piece ?_ ?_ (by show x.addr + n = y.addr + n; rw [ha]) ?_ ?_
          · intro e; have := congrArg List.length e; simp at this; omega
          · intro e; have := congrArg List.length e; simp at this; omega
          · have := congrArg (List.drop n) ht
            rwa [List.drop_take, List.drop_take] at this
          · show PiecesAgree (k - n - (x.data.drop n).length) s t
            rw [List.length_drop, show k - n - (x.data.length - n) = k - x.data.length by omega]; exact hs
        · have hl' : ¬ n < y.data.length := by omega
          have e1 : n = x.data.length := by omega
          have e2 : n = y.data.length := by omega
          rw [if_neg hl, if_neg hl', ← e1, ← e2, Nat.sub_self, hadv, hadv]
          rw [← e1] at hs
          have hm : 0 < k - n := by omega
          generalize k - n = m at *
          cases hs with
          | done => omega
          | piece hx' hy' ha' ht' hs' =>
            rw [List.dropWhile_cons_of_neg (by simp [hx']), List.dropWhile_cons_of_neg (by simp [hy'])]
            exact .piece hx' hy' ha' ht' hs'
    · exact ChunkBuf.advLoop_cost x s n h1
    · exact ChunkBuf.advLoop_cost y t n h2

/-- **C09** for borrowed pieces. -/
theorem c09_pieces (ps : List Slice) (hne : ∀ p ∈ ps, p.data ≠ []) (s t : List Slice) (hs : ∀ p ∈ s, p.data ≠ [])
    {cfg : ParseConfig} (hw : cfg.Wf) (hc : Complete cfg (piecesData ps)) (v : Visitor Cow O) :
    (P.record v (Parser.new (⟨ps ++ s⟩ : ChunkBuf) cfg)).res = (P.record v (Parser.new (⟨ps ++ t⟩ : ChunkBuf) cfg)).res := by
  have ha : ∀ ps : List Slice, (∀ p ∈ ps, p.data ≠ []) → PiecesAgree (piecesData ps).length (ps ++ s) (ps ++ t) := by
    intro ps h
    induction ps with
    | nil => exact .done _ _
    | cons p ps ih =>
      refine .piece (h p (List.mem_cons_self ..)) (h p (List.mem_cons_self ..)) rfl rfl ?_
      have := ih fun x hx => h x (List.mem_cons_of_mem _ hx)
      rw [show (piecesData (p :: ps)).length - p.data.length = (piecesData ps).length by simp [piecesData]]
      exact this
  have hd : piecesData (ps ++ s) = piecesData ps ++ piecesData s := by simp [piecesData]
  exact (PiecesAgree.agree.record (k := (piecesData ps).length) hc.1 (p := Parser.new ⟨ps ++ s⟩ cfg) (q := Parser.new ⟨ps ++ t⟩ cfg)
    ⟨ha ps hne, rfl, rfl⟩ v (Complete.fits (RepP.pieces (ps ++ s) (fun p hp => (List.mem_append.mp hp).elim (hne p) (hs p)) hw)
      hd hc (Nat.le_refl _))).1

/-- An incomplete record does depend on what follows: here the size field announces 24 bytes and 20 are there. -/
theorem c09_incomplete : (match (P.parseRecord (Parser.new (⟨0, demoLost.take 20⟩ : Slice) demoCfg)).res,
      (P.parseRecord (Parser.new (⟨0, demoLost.take 20 ++ [0, 0, 0, 1]⟩ : Slice) demoCfg)).res with
    | .error (.err e), .ok (.lost r) => e.kind == .eof && r == ⟨7, 0x100000000000003⟩
    | _, _ => false) = true := by decide +kernel

/-! ## C57, second half -/

/-- **C57** If the reader fails only after the bytes of the record, the result is what it would be had the input
simply ended there. -/
theorem c57_after (ds : List (List Byte)) (hne : ∀ d ∈ ds, d ≠ []) (e : IoError) (more : List ReadEvent) {cfg : ParseConfig}
    (hw : cfg.Wf) (hc : Complete cfg ds.flatten) (v : Visitor Cow O) :
    (P.record v (Parser.new (⟨[], ds.map ReadEvent.data ++ .error e :: more⟩ : BufReader) cfg)).res =
      (P.record v (Parser.new (⟨[], ds.map ReadEvent.data⟩ : BufReader) cfg)).res := by
  have := c09_reader ds hne (.error e :: more) [] hw hc v
  rwa [List.append_nil] at this

example : (match (P.parseRecord (Parser.new (⟨[], [.data (demoLost.take 11), .data ((demoLost.drop 11).take 13),
    .error ⟨false, "disk on fire"⟩]⟩ : BufReader) demoCfg)).res with
  | .ok (.lost r) => r == ⟨7, 3⟩
  | _ => false) = true := by decide +kernel
example : Complete demoCfg demoLost := by unfold Complete; decide +kernel
example : Complete demoCfg (demoLost.take 24) := by unfold Complete; decide +kernel

end Perf
