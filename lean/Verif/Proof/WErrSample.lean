import Verif.Proof.WErrBody
/-!
# With what errors the sample parser ends in pieces of memory, exactly

The parser of samples is a chain of parts, none of which depends on what the others have read. So if it fails at one part, the parser for a
`sample_type` that stops before this part succeeds.
-/
namespace Perf
open ParserM
variable {cfg : ParseConfig} {o : Order} {w : Nat → Nat → Option Nat} {α α' V : Type}

/-! ## Chains -/

namespace Woven

/-- A parser whose result does not matter. -/
def void (s : Woven w α) : Woven w Unit := fun f => match s f with
  | .error e => .error e
  | .ok (_, g) => .ok ((), g)

/-- One after the other. -/
def chain : List (Woven w Unit) → Woven w Unit
  | [] => fun f => .ok ((), f)
  | m :: ms => fun f => match m f with
    | .error e => .error e
    | .ok (_, g) => chain ms g

theorem void_bind {s : Woven w α} {k : α → Woven w α'} {ms : List (Woven w Unit)} (h : ∀ a, void (k a) = chain ms) :
    void (s >>= k) = chain (void s :: ms) := by
  funext f
  show (match (s >>= k) f with
    | .error e => .error e
    | .ok (_, g) => .ok ((), g) : Except Fault (Unit × Flat)) = (match (match s f with
    | .error e => .error e
    | .ok (_, g) => .ok ((), g) : Except Fault (Unit × Flat)) with
    | .error e => .error e
    | .ok (_, g) => chain ms g : Except Fault (Unit × Flat))
  rw [bind_eq]
  rcases s f with e | ⟨a, g⟩
  · rfl
  · exact congrFun (h a) g

theorem void_error {s : Woven w α} {f : Flat} {e : Fault} : void s f = .error e ↔ s f = .error e := by
  unfold void
  rcases s f with x | ⟨a, g⟩
  · exact ⟨fun h => (by cases h; rfl), fun h => (by cases h; rfl)⟩
  · exact ⟨fun h => (by cases h), fun h => (by cases h)⟩

theorem void_ok {s : Woven w α} {f g : Flat} : void s f = .ok ((), g) ↔ ∃ a, s f = .ok (a, g) := by
  unfold void
  rcases s f with x | ⟨a, g'⟩
  · exact ⟨fun h => (by cases h), fun ⟨_, h⟩ => (by cases h)⟩
  · exact ⟨fun h => ⟨a, by cases h; rfl⟩, fun ⟨_, h⟩ => (by cases h; rfl)⟩

theorem chain_append (xs ys : List (Woven w Unit)) (f : Flat) : chain (xs ++ ys) f = match chain xs f with
    | .error e => .error e
    | .ok (_, g) => chain ys g := by
  induction xs generalizing f with
  | nil => rfl
  | cons m ms ih =>
    show (match m f with
      | .error e => .error e
      | .ok (_, g) => chain (ms ++ ys) g : Except Fault (Unit × Flat)) = (match (match m f with
      | .error e => .error e
      | .ok (_, g) => chain ms g : Except Fault (Unit × Flat)) with
      | .error e => .error e
      | .ok (_, g) => chain ys g : Except Fault (Unit × Flat))
    rcases m f with e | ⟨_, g⟩
    · rfl
    · exact ih g

/-- A chain fails where the first of its parts fails. -/
theorem chain_error {ms : List (Woven w Unit)} {f : Flat} {e : Fault} : chain ms f = .error e ↔
    ∃ (i : Nat) (m : Woven w Unit) (g : Flat), ms[i]? = some m ∧ chain (ms.take i) f = .ok ((), g) ∧ m g = .error e := by
  induction ms generalizing f with
  | nil => exact ⟨fun h => (by cases h), fun ⟨_, _, _, h, _⟩ => (by cases h)⟩
  | cons m ms ih =>
    have hc : ∀ ms, chain (m :: ms) f = match m f with
      | .error e => .error e
      | .ok (_, g) => chain ms g := fun _ => rfl
    rw [hc]
    rcases hm : m f with x | ⟨u, g⟩
    · constructor
      · intro h; cases h; exact ⟨0, m, f, rfl, rfl, hm⟩
      · rintro ⟨_ | i, m', g', h1, h2, h3⟩
        · cases h1; cases h2; exact hm.symm.trans h3
        · rw [List.take_succ_cons, hc, hm] at h2; cases h2
    · dsimp only
      rw [ih]
      constructor
      · rintro ⟨i, m', g', h1, h2, h3⟩
        refine ⟨i + 1, m', g', h1, ?_, h3⟩
        rw [List.take_succ_cons, hc, hm]
        exact h2
      · rintro ⟨_ | i, m', g', h1, h2, h3⟩
        · cases h1; cases h2; rw [hm] at h3; cases h3
        · rw [List.take_succ_cons, hc, hm] at h2
          exact ⟨i, m', g', h1, h2, h3⟩

/-- The parser for one part of a sample, if it is asked for. -/
def part (st : U64) (b : Nat) (s : Woven w α) : Woven w Unit := void (Perf.parseIf (st.getLsbD b) s)

theorem part_false {st : U64} {b : Nat} (h : st.getLsbD b = false) (s : Woven w α) : part st b s = fun f => .ok ((), f) := by
  unfold part
  rw [h]
  rfl

/-- All the parts of a sample. -/
def parts (w : Nat → Nat → Option Nat) (st : U64) (hw : Bool) : List (Woven w Unit) :=
  [part st 16 parseU64, part st 0 parseU64, part st 1 parseU32, part st 1 parseU32, part st 2 parseU64, part st 3 parseU64, part st 6 parseU64,
   part st 9 parseU64, part st 7 parseCpu, part st 8 parseU64, part st 4 parseValues, part st 5 parseCallchain, part st 10 (padded 8 parseRawInner),
   part st 11 (parseLbr hw), part st 12 parseRegistersUser, part st 13 parseStackUser, part st 14 parseU64, part st 15 parseU64, part st 17 parseU64,
   part st 18 parseRegistersIntr, part st 19 parseU64, part st 21 parseU64, part st 22 parseU64, part st 23 parseU64, part st 20 parseAuxData]

theorem sample_chain {f : Flat} (hf : f.cfg = cfg) : void (parseSample : Woven w (Sample List)) f = chain (parts w cfg.sampleType cfg.branchHwIndex) f := by
  have e (m : U64) (i : Nat) (hm : m = 1#64 <<< i) (hi : i < 64) :
    contains cfg.sampleType m = cfg.sampleType.getLsbD i := contains_rf _ i hi m hm
  have hbind : ∀ (k : ParseConfig → Woven w (Sample List)), void ((ParserM.config : Woven w ParseConfig) >>= k) f = void (k cfg) f := by
    intro k; rw [← hf]; rfl
  unfold parseSample
  rw [hbind]
  refine congrFun ?_ f
  dsimp only
  rw [e SampleFlags.IDENTIFIER 16 rfl (by omega), e SampleFlags.IP 0 rfl (by omega), e SampleFlags.TID 1 rfl (by omega), e SampleFlags.TIME 2 rfl (by omega),
    e SampleFlags.ADDR 3 rfl (by omega), e SampleFlags.ID 6 rfl (by omega), e SampleFlags.STREAM_ID 9 rfl (by omega), e SampleFlags.CPU 7 rfl (by omega),
    e SampleFlags.PERIOD 8 rfl (by omega), e SampleFlags.READ 4 rfl (by omega), e SampleFlags.CALLCHAIN 5 rfl (by omega), e SampleFlags.RAW 10 rfl (by omega),
    e SampleFlags.BRANCH_STACK 11 rfl (by omega), e SampleFlags.REGS_USER 12 rfl (by omega), e SampleFlags.STACK_USER 13 rfl (by omega),
    e SampleFlags.WEIGHT 14 rfl (by omega), e SampleFlags.DATA_SRC 15 rfl (by omega), e SampleFlags.TRANSACTION 17 rfl (by omega),
    e SampleFlags.REGS_INTR 18 rfl (by omega), e SampleFlags.PHYS_ADDR 19 rfl (by omega), e SampleFlags.CGROUP 21 rfl (by omega),
    e SampleFlags.DATA_PAGE_SIZE 22 rfl (by omega), e SampleFlags.CODE_PAGE_SIZE 23 rfl (by omega), e SampleFlags.AUX 20 rfl (by omega)]
  iterate 25 refine void_bind fun _ => ?_
  rfl

end Woven

/-! ## The same input under another configuration -/

/-- The same input. -/
def Flat.under (f : Flat) (c : ParseConfig) : Flat := { f with cfg := c }

/-- Two parsers that take the same under two configurations. -/
structure Alike (cfg cfg' : ParseConfig) (s s' : Woven w Unit) : Prop where
  to (f : Flat) (hf : f.cfg = cfg) (hl : f.s.bytes.length < 65536) {g : Flat} (h : s f = .ok ((), g)) :
    ∃ n, g = f.adv n ∧ s' (f.under cfg') = .ok ((), (f.under cfg').adv n)
  back (f : Flat) (hf : f.cfg = cfg) (hl : f.s.bytes.length < 65536) {g : Flat} (h : s' (f.under cfg') = .ok ((), g)) :
    ∃ n, g = (f.under cfg').adv n ∧ s f = .ok ((), f.adv n)

namespace Alike
variable {cfg' : ParseConfig}

theorem of {s : Woven w α} {s' : Woven w α} {val : V → α} {enc : V → List Byte} {C : Nat → V → List Byte → Prop} (h : WEnc cfg s val enc C)
    (h' : WEnc cfg' s' val enc C) : Alike cfg cfg' (Woven.void s) (Woven.void s') where
  to f hf hl g h1 := by
    obtain ⟨a, h1⟩ := Woven.void_ok.1 h1
    obtain ⟨v, tl, h2, h3, h4, h5⟩ := (h f hf hl a _).1 h1
    exact ⟨_, h3, Woven.void_ok.2 ⟨a, (h' (f.under cfg') rfl hl a _).2 ⟨v, tl, h2, rfl, h4, h5⟩⟩⟩
  back f hf hl g h1 := by
    obtain ⟨a, h1⟩ := Woven.void_ok.1 h1
    obtain ⟨v, tl, h2, h3, h4, h5⟩ := (h' (f.under cfg') rfl hl a _).1 h1
    exact ⟨_, h3, Woven.void_ok.2 ⟨a, (h f hf hl a _).2 ⟨v, tl, h2, rfl, h4, h5⟩⟩⟩

theorem nil : Alike cfg cfg' (Woven.chain [] : Woven w Unit) (Woven.chain []) where
  to f _ _ g h := by cases h; exact ⟨0, by simp, by rw [Flat.adv_zero]; rfl⟩
  back f _ _ g h := by cases h; exact ⟨0, by simp, by rw [Flat.adv_zero]; rfl⟩

theorem cons {s s' : Woven w Unit} {ms ms' : List (Woven w Unit)} (h : Alike cfg cfg' s s') (h' : Alike cfg cfg' (Woven.chain ms) (Woven.chain ms')) :
    Alike cfg cfg' (Woven.chain (s :: ms)) (Woven.chain (s' :: ms')) := by
  have hc : ∀ (m : Woven w Unit) ms (f : Flat), Woven.chain (m :: ms) f = match m f with
      | .error e => .error e
      | .ok (_, g) => Woven.chain ms g := fun _ _ _ => rfl
  have hlen : ∀ (f : Flat) n, f.s.bytes.length < 65536 → (f.adv n).s.bytes.length < 65536 := fun f n h => by rw [Flat.adv_bytes, List.length_drop]; omega
  constructor
  · intro f hf hl g h1
    rw [hc] at h1
    rcases hm : s f with x | ⟨u, g1⟩ <;> rw [hm] at h1
    · cases h1
    · obtain ⟨n, rfl, hn⟩ := h.to f hf hl hm
      obtain ⟨k, rfl, hk⟩ := h'.to (f.adv n) hf (hlen f n hl) h1
      refine ⟨n + k, Flat.adv_adv f n k, ?_⟩
      rw [hc, hn, ← Flat.adv_adv]
      exact hk
  · intro f hf hl g h1
    rw [hc] at h1
    rcases hm : s' (f.under cfg') with x | ⟨u, g1⟩ <;> rw [hm] at h1
    · cases h1
    · obtain ⟨n, rfl, hn⟩ := h.back f hf hl hm
      obtain ⟨k, rfl, hk⟩ := h'.back (f.adv n) hf (hlen f n hl) h1
      refine ⟨n + k, Flat.adv_adv (f.under cfg') n k, ?_⟩
      rw [hc, hn, ← Flat.adv_adv]
      exact hk


theorem chain {ms ms' : List (Woven w Unit)} (j : Nat) (h : ∀ i m, i < j → ms[i]? = some m → ∃ m', ms'[i]? = some m' ∧ Alike cfg cfg' m m')
    (hl : ms.length = ms'.length) : Alike cfg cfg' (Woven.chain (ms.take j)) (Woven.chain (ms'.take j)) := by
  induction ms generalizing ms' j with
  | nil =>
    cases ms' with
    | nil => rw [List.take_nil]; exact nil
    | cons => cases hl
  | cons m ms ih =>
    cases ms' with
    | nil => cases hl
    | cons m' ms' =>
      cases j with
      | zero => exact nil
      | succ j =>
        obtain ⟨_, h1, h2⟩ := h 0 m (by omega) rfl
        cases h1
        exact h2.cons (ih j (fun i x hi hx => h (i + 1) x (by omega) hx) (by simpa using hl))

end Alike

/-! ## The parts of a sample -/

namespace Woven

/-- The bit of `sample_type` for each of the parts. -/
def bitAt : Nat → Nat := fun i => [16, 0, 1, 1, 2, 3, 6, 9, 7, 8, 4, 5, 10, 11, 12, 13, 14, 15, 17, 18, 19, 21, 22, 23, 20].getD i 64

theorem parts_length (st : U64) (hw : Bool) : (parts w st hw).length = 25 := rfl

theorem part_alike {cfg' : ParseConfig} {st st' : U64} {b : Nat} (hb : st'.getLsbD b = st.getLsbD b) {s : Woven w α} {val : V → α} {enc : V → List Byte}
    {C : Nat → V → List Byte → Prop} (dflt : V) (h : WEnc cfg s val enc C) (h' : WEnc cfg' s val enc C) : Alike cfg cfg' (part st b s) (part st' b s) := by
  unfold part
  rw [hb]
  exact .of (WEnc.parseIf dflt _ rfl fun _ => h) (WEnc.parseIf dflt _ rfl fun _ => h')

/-- The same part under two configurations. -/
theorem parts_alike (hs : Src cfg o) (wf : cfg.Wf) {st : U64} (hs' : Src (cfg.withSampleType st) o) (wf' : (cfg.withSampleType st).Wf)
    (hrf : (cfg.withSampleType st).readFormat = cfg.readFormat) {st1 st2 : U64} {hw : Bool} :
    ∀ (i : Nat) (m : Woven w Unit), (parts w st1 hw)[i]? = some m → st2.getLsbD (bitAt i) = st1.getLsbD (bitAt i) →
      ∃ m', (parts w st2 hw)[i]? = some m' ∧ Alike cfg (cfg.withSampleType st) m m' := by
  have hvalues := WEnc.values (w := w) hs' wf'
  rw [hrf] at hvalues
  intro i m h hb
  match i, h, hb with
  | 0, h, hb => cases h; exact ⟨_, rfl, part_alike hb (0#64) (WEnc.u64 hs) (WEnc.u64 hs')⟩
  | 1, h, hb => cases h; exact ⟨_, rfl, part_alike hb (0#64) (WEnc.u64 hs) (WEnc.u64 hs')⟩
  | 2, h, hb => cases h; exact ⟨_, rfl, part_alike hb (0#32) (WEnc.u32 hs) (WEnc.u32 hs')⟩
  | 3, h, hb => cases h; exact ⟨_, rfl, part_alike hb (0#32) (WEnc.u32 hs) (WEnc.u32 hs')⟩
  | 4, h, hb => cases h; exact ⟨_, rfl, part_alike hb (0#64) (WEnc.u64 hs) (WEnc.u64 hs')⟩
  | 5, h, hb => cases h; exact ⟨_, rfl, part_alike hb (0#64) (WEnc.u64 hs) (WEnc.u64 hs')⟩
  | 6, h, hb => cases h; exact ⟨_, rfl, part_alike hb (0#64) (WEnc.u64 hs) (WEnc.u64 hs')⟩
  | 7, h, hb => cases h; exact ⟨_, rfl, part_alike hb (0#64) (WEnc.u64 hs) (WEnc.u64 hs')⟩
  | 8, h, hb => cases h; exact ⟨_, rfl, part_alike hb (0, 0) (WEnc.cpu hs) (WEnc.cpu hs')⟩
  | 9, h, hb => cases h; exact ⟨_, rfl, part_alike hb (0#64) (WEnc.u64 hs) (WEnc.u64 hs')⟩
  | 10, h, hb => cases h; exact ⟨_, rfl, part_alike hb (⟨0, 0, 0, 0, 0⟩, ⟨0, 0, []⟩, []) (WEnc.values hs wf) (hvalues)⟩
  | 11, h, hb => cases h; exact ⟨_, rfl, part_alike hb ([], []) (WEnc.callchain hs wf) (WEnc.callchain hs' wf')⟩
  | 12, h, hb => cases h; exact ⟨_, rfl, part_alike hb ([], []) (WEnc.raw hs) (WEnc.raw hs')⟩
  | 13, h, hb => cases h; exact ⟨_, rfl, part_alike hb (0, [], []) (WEnc.lbr hs wf _) (WEnc.lbr hs' wf' _)⟩
  | 14, h, hb => cases h; exact ⟨_, rfl, part_alike hb (⟨0, []⟩, []) (WEnc.config (WEnc.regs hs wf _)) (WEnc.config (WEnc.regs hs' wf' _))⟩
  | 15, h, hb => cases h; exact ⟨_, rfl, part_alike hb ([], 0) (WEnc.stack hs) (WEnc.stack hs')⟩
  | 16, h, hb => cases h; exact ⟨_, rfl, part_alike hb (0#64) (WEnc.u64 hs) (WEnc.u64 hs')⟩
  | 17, h, hb => cases h; exact ⟨_, rfl, part_alike hb (0#64) (WEnc.u64 hs) (WEnc.u64 hs')⟩
  | 18, h, hb => cases h; exact ⟨_, rfl, part_alike hb (0#64) (WEnc.u64 hs) (WEnc.u64 hs')⟩
  | 19, h, hb => cases h; exact ⟨_, rfl, part_alike hb (⟨0, []⟩, []) (WEnc.config (WEnc.regs hs wf _)) (WEnc.config (WEnc.regs hs' wf' _))⟩
  | 20, h, hb => cases h; exact ⟨_, rfl, part_alike hb (0#64) (WEnc.u64 hs) (WEnc.u64 hs')⟩
  | 21, h, hb => cases h; exact ⟨_, rfl, part_alike hb (0#64) (WEnc.u64 hs) (WEnc.u64 hs')⟩
  | 22, h, hb => cases h; exact ⟨_, rfl, part_alike hb (0#64) (WEnc.u64 hs) (WEnc.u64 hs')⟩
  | 23, h, hb => cases h; exact ⟨_, rfl, part_alike hb (0#64) (WEnc.u64 hs) (WEnc.u64 hs')⟩
  | 24, h, hb => cases h; exact ⟨_, rfl, part_alike hb [] (WEnc.auxData hs) (WEnc.auxData hs')⟩
  | n + 25, h, _ => cases h

theorem parts_skip {st : U64} {hw : Bool} :
    ∀ (i : Nat) (m : Woven w Unit), (parts w st hw)[i]? = some m → st.getLsbD (bitAt i) = false → m = fun f => .ok ((), f) := by
  intro i m h hb
  match i, h, hb with
  | 0, h, hb => cases h; exact part_false hb _
  | 1, h, hb => cases h; exact part_false hb _
  | 2, h, hb => cases h; exact part_false hb _
  | 3, h, hb => cases h; exact part_false hb _
  | 4, h, hb => cases h; exact part_false hb _
  | 5, h, hb => cases h; exact part_false hb _
  | 6, h, hb => cases h; exact part_false hb _
  | 7, h, hb => cases h; exact part_false hb _
  | 8, h, hb => cases h; exact part_false hb _
  | 9, h, hb => cases h; exact part_false hb _
  | 10, h, hb => cases h; exact part_false hb _
  | 11, h, hb => cases h; exact part_false hb _
  | 12, h, hb => cases h; exact part_false hb _
  | 13, h, hb => cases h; exact part_false hb _
  | 14, h, hb => cases h; exact part_false hb _
  | 15, h, hb => cases h; exact part_false hb _
  | 16, h, hb => cases h; exact part_false hb _
  | 17, h, hb => cases h; exact part_false hb _
  | 18, h, hb => cases h; exact part_false hb _
  | 19, h, hb => cases h; exact part_false hb _
  | 20, h, hb => cases h; exact part_false hb _
  | 21, h, hb => cases h; exact part_false hb _
  | 22, h, hb => cases h; exact part_false hb _
  | 23, h, hb => cases h; exact part_false hb _
  | 24, h, hb => cases h; exact part_false hb _
  | n + 25, h, _ => cases h

theorem part_wrong {st : U64} {b : Nat} {s : Woven w α} {D : ParseError → Nat → List Byte → Prop} (h : WErr cfg s D) :
    WErr cfg (part st b s) fun e k bs => st.getLsbD b = true ∧ D e k bs := by
  intro f hf hl e he
  unfold part
  rw [void_error]
  exact WErr.parseIf _ rfl (fun _ => h) f hf hl e he

theorem part_quiet {native : Bool} {rf : U64} {hw : Bool} {st : U64} {b : Nat} {s : Woven w α} (h : NoComplaint cfg s)
    (hb : ∀ bs e, ¬ PartWrong native o rf hw b bs e) :
    WErr cfg (part st b s) fun e _ bs => st.getLsbD b = true ∧ PartWrong native o rf hw b bs e :=
  (part_wrong h).re fun _ _ _ _ => and_congr Iff.rfl ⟨False.elim, fun h => hb _ _ h⟩

/-- What is wrong when a part fails. -/
theorem parts_wrong (hs : Src cfg o) {st : U64} {hw : Bool} : ∀ (i : Nat) (m : Woven w Unit), (parts w st hw)[i]? = some m →
    WErr cfg m fun e _ bs => st.getLsbD (bitAt i) = true ∧ PartWrong cfg.endian.isNative o cfg.readFormat hw (bitAt i) bs e := by
  intro i m h
  match i, h with
  | 0, h => cases h; exact part_quiet WErr.u64 nofun
  | 1, h => cases h; exact part_quiet WErr.u64 nofun
  | 2, h => cases h; exact part_quiet WErr.u32 nofun
  | 3, h => cases h; exact part_quiet WErr.u32 nofun
  | 4, h => cases h; exact part_quiet WErr.u64 nofun
  | 5, h => cases h; exact part_quiet WErr.u64 nofun
  | 6, h => cases h; exact part_quiet WErr.u64 nofun
  | 7, h => cases h; exact part_quiet WErr.u64 nofun
  | 8, h => cases h; exact part_quiet (WErr.cpu hs) nofun
  | 9, h => cases h; exact part_quiet WErr.u64 nofun
  | 10, h => cases h; exact part_wrong (WErr.values hs hw)
  | 11, h => cases h; exact part_wrong (WErr.callchain hs hw)
  | 12, h => cases h; exact part_quiet (WErr.raw hs) nofun
  | 13, h => cases h; exact part_wrong (WErr.lbr hs hw)
  | 14, h => cases h; exact part_quiet (WErr.config (WErr.regs hs _)) nofun
  | 15, h => cases h; exact part_wrong (WErr.stack hs hw)
  | 16, h => cases h; exact part_quiet WErr.u64 nofun
  | 17, h => cases h; exact part_quiet WErr.u64 nofun
  | 18, h => cases h; exact part_quiet WErr.u64 nofun
  | 19, h => cases h; exact part_quiet (WErr.config (WErr.regs hs _)) nofun
  | 20, h => cases h; exact part_quiet WErr.u64 nofun
  | 21, h => cases h; exact part_quiet WErr.u64 nofun
  | 22, h => cases h; exact part_quiet WErr.u64 nofun
  | 23, h => cases h; exact part_quiet WErr.u64 nofun
  | 24, h => cases h; exact part_quiet (WErr.auxData hs) nofun
  | n + 25, h => cases h


/-! ## A `sample_type` that stops before a part -/

/-- The bits of the parts before a part. -/
def maskBefore (b : Nat) : U64 := (readOrder.takeWhile (· != b)).foldl (fun m i => m ||| 1#64 <<< i) 0#64

/-- The parts that can be wrong, with their places. -/
def wrongParts : List (Nat × Nat) := [(4, 10), (5, 11), (11, 13), (13, 15)]

theorem maskBefore_bits : ∀ p ∈ wrongParts, bitAt p.2 = p.1 ∧ (∀ k : Fin 25, (maskBefore p.1).getLsbD (bitAt k) = decide (k.val < p.2)) := by
  decide +kernel

theorem partWrong_mem {native : Bool} {rf : U64} {hw : Bool} {b : Nat} {bs : List Byte} {e : ParseError} (h : PartWrong native o rf hw b bs e) :
    ∃ i, (b, i) ∈ wrongParts := by
  cases h
  · exact ⟨10, by decide⟩
  · exact ⟨10, by decide⟩
  · exact ⟨10, by decide⟩
  · exact ⟨11, by decide⟩
  · exact ⟨13, by decide⟩
  · exact ⟨15, by decide⟩

theorem bitAt_wrong : ∀ p ∈ wrongParts, ∀ i : Fin 25, bitAt i = p.1 → i.val = p.2 := by decide +kernel

theorem withSampleType_sampleType (cfg : ParseConfig) (b : Nat) :
    (cfg.withSampleType (partsBefore cfg.sampleType b)).sampleType = partsBefore cfg.sampleType b := by
  apply BitVec.eq_of_getLsbD_eq
  intro i _
  show (ConfigFlags.sampleType (ConfigFlags.setSampleType cfg.config.configFlags (partsBefore cfg.sampleType b))).getLsbD i = _
  rw [ConfigFlags.bit_sampleType, ConfigFlags.bit_setSampleType]
  have hp : (partsBefore cfg.sampleType b).getLsbD i = (cfg.sampleType.getLsbD i && (maskBefore b).getLsbD i) := BitVec.getLsbD_and
  by_cases h : i < 40
  · rw [if_pos (by omega), show 6 + i - 6 = i by omega, decide_eq_true h, Bool.and_true]
  · have h0 : cfg.sampleType.getLsbD i = false := by
      show (ConfigFlags.sampleType cfg.config.configFlags).getLsbD i = false
      rw [ConfigFlags.bit_sampleType, decide_eq_false h, Bool.and_false]
    rw [decide_eq_false h, Bool.and_false, hp, h0, Bool.false_and]

theorem withSampleType_readFormat (cfg : ParseConfig) (st : U64) : (cfg.withSampleType st).readFormat = cfg.readFormat := by
  apply BitVec.eq_of_getLsbD_eq
  intro i _
  show (ConfigFlags.readFormat (ConfigFlags.setSampleType cfg.config.configFlags st)).getLsbD i = (ConfigFlags.readFormat cfg.config.configFlags).getLsbD i
  rw [ConfigFlags.bit_readFormat, ConfigFlags.bit_readFormat, ConfigFlags.bit_setSampleType]
  by_cases h : i < 6
  · rw [if_neg (by omega)]
  · rw [decide_eq_false h, Bool.and_false, Bool.and_false]

theorem withSampleType_branchHwIndex (cfg : ParseConfig) (st : U64) : (cfg.withSampleType st).branchHwIndex = cfg.branchHwIndex := by
  show ConfigFlags.branchHwIndex (ConfigFlags.setSampleType cfg.config.configFlags st) = ConfigFlags.branchHwIndex cfg.config.configFlags
  rw [ConfigFlags.bit_branchHwIndex, ConfigFlags.bit_branchHwIndex, ConfigFlags.bit_setSampleType, if_neg (by omega)]

theorem chain_skip {ms : List (Woven w Unit)} (h : ∀ m ∈ ms, m = fun f => .ok ((), f)) (f : Flat) : chain ms f = .ok ((), f) := by
  induction ms generalizing f with
  | nil => rfl
  | cons m ms ih =>
    have h1 := h m List.mem_cons_self
    subst h1
    exact ih (fun x hx => h x (List.mem_cons_of_mem _ hx)) f

/-- The parts before one are what the parser for a shorter `sample_type` takes. -/
theorem sample_upto (hs : Src cfg o) (wf : cfg.Wf) {b j : Nat} (hb : (b, j) ∈ wrongParts) :
    Alike cfg (cfg.withSampleType (partsBefore cfg.sampleType b)) (chain ((parts w cfg.sampleType cfg.branchHwIndex).take j))
      (void (parseSample : Woven w (Sample List))) := by
  obtain ⟨_, hm⟩ := maskBefore_bits _ hb
  have hp : ∀ i, (partsBefore cfg.sampleType b).getLsbD i = (cfg.sampleType.getLsbD i && (maskBefore b).getLsbD i) := fun i => BitVec.getLsbD_and
  have ha : Alike cfg (cfg.withSampleType (partsBefore cfg.sampleType b)) (chain ((parts w cfg.sampleType cfg.branchHwIndex).take j))
      (chain ((parts w (partsBefore cfg.sampleType b) cfg.branchHwIndex).take j)) := by
    refine Alike.chain j (fun i m hi hx => ?_) rfl
    have hi' : i < 25 := by
      have := (List.getElem?_eq_some_iff.1 hx).1
      exact this
    refine parts_alike hs wf ⟨hs.conv16, hs.conv32, hs.conv64⟩ wf (withSampleType_readFormat _ _) i m hx ?_
    rw [hp, hm ⟨i, hi'⟩, decide_eq_true (show i < j from hi), Bool.and_true]
  have he : ∀ f : Flat, chain (parts w (partsBefore cfg.sampleType b) cfg.branchHwIndex) f = chain ((parts w (partsBefore cfg.sampleType b) cfg.branchHwIndex).take j) f := by
    intro f
    rw [← List.take_append_drop j (parts w (partsBefore cfg.sampleType b) cfg.branchHwIndex), chain_append, List.take_append_drop]
    rcases chain ((parts w (partsBefore cfg.sampleType b) cfg.branchHwIndex).take j) f with x | ⟨_, g⟩
    · rfl
    · refine chain_skip (fun m hx => ?_) g
      obtain ⟨i, hi, rfl⟩ := List.mem_iff_getElem.1 hx
      rw [List.length_drop] at hi
      have hi' : j + i < 25 := by
        have := parts_length (w := w) (partsBefore cfg.sampleType b) cfg.branchHwIndex
        omega
      refine parts_skip (st := partsBefore cfg.sampleType b) (hw := cfg.branchHwIndex) (j + i) _ ?_ ?_
      · rw [List.getElem_drop]; exact List.getElem?_eq_getElem _
      · rw [hp, hm ⟨j + i, hi'⟩, decide_eq_false (show ¬ j + i < j by omega), Bool.and_false]
  have hf : ∀ f : Flat, void (parseSample : Woven w (Sample List)) (f.under (cfg.withSampleType (partsBefore cfg.sampleType b))) =
      chain ((parts w (partsBefore cfg.sampleType b) cfg.branchHwIndex).take j) (f.under (cfg.withSampleType (partsBefore cfg.sampleType b))) := by
    intro f
    rw [sample_chain (cfg := cfg.withSampleType (partsBefore cfg.sampleType b)) rfl, withSampleType_sampleType, withSampleType_branchHwIndex, he]
  exact ⟨fun f h1 h2 g h3 => by rw [hf]; exact ha.to f h1 h2 h3, fun f h1 h2 g h3 => by rw [hf] at h3; exact ha.back f h1 h2 h3⟩

end Woven

theorem bodyWrong_sample {misc : U16} {bs : List Byte} {e : ParseError} (h : BodyWrong o cfg misc w 9 bs e) : ∃ (b : Nat) (s : KSample) (d : Dropped) (rest : List Byte), cfg.sampleType.getLsbD b = true ∧
    s.Strewn cfg.endian.isNative o (partsBefore cfg.sampleType b) cfg.readFormat cfg.regsUser cfg.regsIntr cfg.branchHwIndex w d rest ∧
    bs = s.encHeld o (partsBefore cfg.sampleType b) cfg.readFormat cfg.branchHwIndex d ++ rest ∧
    PartWrong cfg.endian.isNative o cfg.readFormat cfg.branchHwIndex b rest e := by
  cases h with
  | sample b s d rest _ h1 h2 h3 => exact ⟨b, s, d, rest, h1, h2, rfl, h3⟩

/-- What is wrong with a sample. -/
theorem WErr.sample (hs : Src cfg o) (wf : cfg.Wf) (misc : U16) : WErr cfg (parseSample : Woven w (Sample List)) fun e k bs =>
    BodyWrong o cfg misc (fun i n => w (k + i) n) 9 bs e := by
  intro f hf hl e he
  have hlen : ∀ n, (f.adv n).s.bytes.length < 65536 := fun n => by rw [Flat.adv_bytes, List.length_drop]; omega
  have hself (j : Nat) : Alike cfg (cfg.withSampleType (partsBefore cfg.sampleType 64)) (Woven.chain ((Woven.parts w cfg.sampleType cfg.branchHwIndex).take j))
      (Woven.chain ((Woven.parts w cfg.sampleType cfg.branchHwIndex).take j)) :=
    Alike.chain j (fun i m _ hx => Woven.parts_alike hs wf ⟨hs.conv16, hs.conv32, hs.conv64⟩ wf (Woven.withSampleType_readFormat _ _) i m hx rfl) rfl
  have henc (b : Nat) := WEnc.sample (w := w) (cfg := cfg.withSampleType (partsBefore cfg.sampleType b)) (o := o) ⟨hs.conv16, hs.conv32, hs.conv64⟩ wf
    (f.under _) rfl hl
  simp only [Woven.withSampleType_sampleType, Woven.withSampleType_readFormat, Woven.withSampleType_branchHwIndex] at henc
  rw [← Woven.void_error, Woven.sample_chain hf, Woven.chain_error]
  constructor
  · rintro ⟨i, m, g, h1, h2, h3⟩
    obtain ⟨n, rfl, -⟩ := (hself i).to f hf hl h2
    obtain ⟨h4, h5⟩ := (Woven.parts_wrong hs i m h1 (f.adv n) hf (hlen n) e he).1 h3
    obtain ⟨j, hj⟩ := Woven.partWrong_mem h5
    have hi : i < 25 := (List.getElem?_eq_some_iff.1 h1).1
    have hij : i = j := Woven.bitAt_wrong _ hj ⟨i, hi⟩ rfl
    subst hij
    obtain ⟨n', h6, h7⟩ := (Woven.sample_upto hs wf hj).to f hf hl h2
    obtain ⟨a, h7⟩ := Woven.void_ok.1 h7
    obtain ⟨⟨s, d⟩, tl, h8, h9, h10, h11⟩ := (henc _ _ _).1 h7
    have h12 : (f.adv n).s.bytes = tl := by
      have e1 : (f.adv n').s.bytes = ((f.under (cfg.withSampleType (partsBefore cfg.sampleType (Woven.bitAt i)))).adv n').s.bytes := rfl
      rw [h6, e1, h9, Flat.adv_bytes, h8, List.drop_left]
    rw [h12] at h5
    have h8' : f.s.bytes = _ := h8
    rw [h8']
    exact .sample (Woven.bitAt i) s d tl e h4 h11 h5
  · intro h
    obtain ⟨b, s, d, tl, h1, h2, h3, h4⟩ := bodyWrong_sample h
    obtain ⟨j, hj⟩ := Woven.partWrong_mem h4
    have hbj : Woven.bitAt j = b := (Woven.maskBefore_bits _ hj).1
    have hj' : j < 25 := by
      have : ∀ p ∈ Woven.wrongParts, p.2 < 25 := by decide
      exact this _ hj
    have h5 := (henc b _ _).2 ⟨(s, d), tl, h3, rfl, rfl, h2⟩
    obtain ⟨n, h6, h7⟩ := (Woven.sample_upto hs wf hj).back f hf hl (Woven.void_ok.2 ⟨_, h5⟩)
    have h8 : (f.adv n).s.bytes = tl := by
      have e1 : (f.adv n).s.bytes = ((f.under (cfg.withSampleType (partsBefore cfg.sampleType b))).adv n).s.bytes := rfl
      rw [e1, ← h6, Flat.adv_bytes]
      show List.drop _ f.s.bytes = tl
      rw [h3, List.drop_left]
    have hx : (Woven.parts w cfg.sampleType cfg.branchHwIndex)[j]? = some ((Woven.parts w cfg.sampleType cfg.branchHwIndex)[j]'hj') := List.getElem?_eq_getElem _
    refine ⟨j, _, f.adv n, hx, h7, (Woven.parts_wrong hs j _ hx (f.adv n) hf (hlen n) e he).2 ?_⟩
    rw [hbj, h8]
    exact ⟨h1, h4⟩

end Perf
