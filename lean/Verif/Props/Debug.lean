import Verif.Model.Debug
import Verif.Props.Parts
import Verif.Props.Group
import Verif.Props.Values
/-!
# C60, C61: what `{:?}` prints
-/
namespace Perf
variable {β : Type} [ParseBuf β] [Lawful β] {p : Parser β} {f : Flat}

/-! ## C60 -/

/-- The value of an upper case hexadecimal digit given by its character code. -/
def hexDigitValue (c : Nat) : Option Nat :=
  if 0x30 ≤ c ∧ c ≤ 0x39 then some (c - 0x30) else if 0x41 ≤ c ∧ c ≤ 0x46 then some (c - 0x41 + 10) else none

/-- The number written by hexadecimal digits, most significant first; `none` when something else occurs. -/
def readHex : List Nat → Option Nat :=
  List.foldl (fun acc c => do let a ← acc; let d ← hexDigitValue c; pure (16 * a + d)) (some 0)

theorem hexDigitValue_upper (n : Nat) (h : n < 16) : hexDigitValue (upperDigit n) = some n := by
  unfold hexDigitValue upperDigit
  by_cases h1 : n < 10
  · rw [if_pos h1, if_pos (by omega)]; simp
  · rw [if_neg h1, if_neg (by omega), if_pos (by omega)]; simp; omega

theorem readHex_snoc (l : List Nat) (c : Nat) :
    readHex (l ++ [c]) = (readHex l).bind fun a => (hexDigitValue c).map fun d => 16 * a + d := by
  unfold readHex
  rw [List.foldl_append]
  simp only [List.foldl_cons, List.foldl_nil]
  cases List.foldl _ _ l with
  | none => rfl
  | some a => cases hexDigitValue c <;> rfl

theorem upperHexRev_read (fuel n : Nat) (h : n < 16 ^ fuel) (h0 : 0 < fuel) :
    readHex (upperHexRev fuel n).reverse = some n := by
  induction fuel generalizing n with
  | zero => omega
  | succ k ih =>
    rw [upperHexRev, List.reverse_cons, readHex_snoc, hexDigitValue_upper _ (Nat.mod_lt _ (by omega))]
    by_cases hd : n / 16 = 0
    · rw [if_pos hd]
      simp only [List.reverse_nil]
      show some _ = some _
      simp; omega
    · rw [if_neg hd, ih (n / 16) (by rw [Nat.pow_succ] at h; omega) (by
        rcases k with _ | k
        · simp at h; omega
        · omega)]
      simp; omega

theorem readHex_zeros (k : Nat) (l : List Nat) : readHex (List.replicate k 0x30 ++ l) = readHex l := by
  induction k with
  | zero => rfl
  | succ k ih =>
    rw [← ih, List.replicate_succ, List.cons_append]
    show List.foldl _ _ _ = List.foldl _ _ _
    rw [List.foldl_cons]
    rfl

theorem upperHexRev_length (fuel n k : Nat) (hk : 0 < k) (hf : k ≤ fuel) (h1 : 16 ^ (k - 1) ≤ n ∨ k = 1) (h2 : n < 16 ^ k) :
    (upperHexRev fuel n).length = k := by
  induction fuel generalizing n k with
  | zero => omega
  | succ m ih =>
    rw [upperHexRev, List.length_cons]
    obtain ⟨j, rfl⟩ : ∃ j, k = j + 1 := ⟨k - 1, by omega⟩
    by_cases hj : j = 0
    · subst hj
      rw [if_pos (by simp at h2; omega)]
      rfl
    · have h3 : 16 ^ j ≤ n := by rcases h1 with h | h; exact h; omega
      obtain ⟨i, rfl⟩ : ∃ i, j = i + 1 := ⟨j - 1, by omega⟩
      have h4 : 16 ^ i ≤ n / 16 := by rw [Nat.pow_succ] at h3; omega
      have h5 : 0 < 16 ^ i := Nat.pow_pos (by omega)
      rw [if_neg (by omega), ih (n / 16) (i + 1) (by omega) (by omega) (.inl h4) (by
        rw [Nat.pow_succ] at h2; omega)]

/-- **C60** `HexAddr` prints `0x` and upper case hexadecimal digits that denote the address. -/
theorem c60_denotes (n : U64) : ∃ ds, hexAddr n = ['0'.toNat, 'x'.toNat] ++ ds ∧ readHex ds = some n.toNat := by
  refine ⟨_, List.append_assoc .., ?_⟩
  rw [readHex_zeros, upperHexRev_read _ _ (by have := n.isLt; omega) (by omega)]

/-- **C60** Different addresses print differently. -/
theorem c60_injective (a b : U64) (h : hexAddr a = hexAddr b) : a = b := by
  obtain ⟨da, h1, h2⟩ := c60_denotes a
  obtain ⟨db, h3, h4⟩ := c60_denotes b
  rw [h1, h3] at h
  have : da = db := by simpa using h
  rw [this, h4] at h2
  exact BitVec.eq_of_toNat_eq (Option.some.inj h2).symm

/-- **C60** The width: 16 characters for addresses below 2^56, then 17 and 18, so not constant. -/
theorem c60_width (n : U64) : (hexAddr n).length =
    if n.toNat < 2 ^ 56 then 16 else if n.toNat < 2 ^ 60 then 17 else 18 := by
  have hlen : (hexAddr n).length = 2 + ((16 - (2 + (upperHexRev 16 n.toNat).length)) + (upperHexRev 16 n.toNat).length) := by
    simp [hexAddr, alternateUpperHex]; omega
  rw [hlen]
  have hn := n.isLt
  by_cases h1 : n.toNat < 2 ^ 56
  · rw [if_pos h1]
    have : (upperHexRev 16 n.toNat).length ≤ 14 := by
      obtain ⟨k, hk0, hk, h3, h4⟩ : ∃ k, 0 < k ∧ k ≤ 14 ∧ (16 ^ (k - 1) ≤ n.toNat ∨ k = 1) ∧ n.toNat < 16 ^ k := by
        have key : ∀ j, 0 < j → n.toNat < 16 ^ j → ∃ k, 0 < k ∧ k ≤ j ∧ (16 ^ (k - 1) ≤ n.toNat ∨ k = 1) ∧ n.toNat < 16 ^ k := by
          intro j
          induction j with
          | zero => intro h; omega
          | succ j ih =>
            intro _ hj
            by_cases hc : j = 0
            · subst hc; exact ⟨1, by omega, by omega, .inr rfl, hj⟩
            · by_cases hl : n.toNat < 16 ^ j
              · obtain ⟨k, h1, h2, h3⟩ := ih (by omega) hl
                exact ⟨k, h1, by omega, h3⟩
              · exact ⟨j + 1, by omega, by omega, .inl (by simpa using hl), hj⟩
        exact key 14 (by omega) (by omega)
      rw [upperHexRev_length 16 _ k hk0 (by omega) h3 h4]
      exact hk
    omega
  · rw [if_neg h1]
    by_cases h2 : n.toNat < 2 ^ 60
    · rw [if_pos h2, upperHexRev_length 16 _ 15 (by omega) (by omega) (.inl (by omega)) (by omega)]
    · rw [if_neg h2, upperHexRev_length 16 _ 16 (by omega) (by omega) (.inl (by omega)) (by omega)]

example : textOf (hexAddr 0xABC#64) = "0x00000000000ABC" ∧ textOf (hexAddr 0xFFFF888012345678#64) = "0xFFFF888012345678" := by
  decide +kernel

/-! ## C61 -/

omit [Lawful β] in
/-- The general case of `Debug` for optional fields: what is printed are the present fields, in order. -/
theorem c61_option_struct {w n : Nat} {F : Fin n → Type} (hw : n < w) (o : (i : Fin n) → Option (F i)) (name : Fin n → String)
    (fmt : (i : Fin n) → F i → String) :
    (OptionStruct.new w o).debug name fmt = some ((List.finRange n).filterMap fun i => (o i).map fun v => (name i, fmt i v)) := by
  have h := (c42_new hw o).1
  unfold OptionStruct.debug
  generalize List.finRange n = l
  induction l with
  | nil => rfl
  | cons i l ih =>
    rw [OptionStruct.debugFrom, h i, List.filterMap_cons]
    cases o i with
    | none => exact ih
    | some v => simp only [ih]; rfl

omit [Lawful β] in
/-- A default value prints no field. -/
theorem c61_default {w n : Nat} {F : Fin n → Type} (hw : n < w) (garbage : (i : Fin n) → Option (F i)) (name : Fin n → String)
    (fmt : (i : Fin n) → F i → String) : (OptionStruct.default w garbage).debug name fmt = some [] := by
  have h := (c42_default hw garbage).1
  unfold OptionStruct.debug
  generalize List.finRange n = l
  induction l with
  | nil => rfl
  | cons i l ih => rw [OptionStruct.debugFrom, h i]; exact ih

/-- `{:?}` -/
@[reducible] def plain : Formatter := ⟨false, .decimal⟩

variable [Formatter]

omit [Formatter] in
/-- The name of every field of a sample, in the order of declaration, with the condition under which the kernel was asked
for it: a bit of `sample_type` (perf_event.h), and for `lbr_hw_index` also `PERF_SAMPLE_BRANCH_HW_INDEX`. -/
def sampleFieldNames (st : U64) (hwIndex : Bool) : List (String × Bool) :=
  [("ip", st.getLsbD 0), ("pid", st.getLsbD 1), ("tid", st.getLsbD 1), ("time", st.getLsbD 2), ("addr", st.getLsbD 3),
   ("id", st.getLsbD 6 || st.getLsbD 16), ("stream_id", st.getLsbD 9), ("cpu", st.getLsbD 7), ("period", st.getLsbD 8),
   ("values", st.getLsbD 4), ("callchain", st.getLsbD 5), ("raw", st.getLsbD 10), ("lbr_hw_index", st.getLsbD 11 && hwIndex),
   ("lbr", st.getLsbD 11), ("regs_user", st.getLsbD 12), ("stack_user", st.getLsbD 13), ("weight", st.getLsbD 14),
   ("data_src", st.getLsbD 15), ("transaction", st.getLsbD 17), ("regs_intr", st.getLsbD 18), ("phys_addr", st.getLsbD 19),
   ("aux", st.getLsbD 20), ("cgroup", st.getLsbD 21), ("data_page_size", st.getLsbD 22), ("code_page_size", st.getLsbD 23)]

theorem ReadGroup.debug_ok (g : ReadGroup Cow) : ∃ s, g.debug = .ok s := by
  obtain ⟨cs, h1, h2, _⟩ := g.counters_exist
  unfold ReadGroup.debug ReadGroup.debugFields
  rw [h1, iterOf_collect _ _ _ (by rw [h2]; exact Nat.lt_succ_of_le (Nat.div_le_self _ _))]
  exact ⟨_, rfl⟩

omit [Formatter] in
/-- The names of what `debugOpt` adds. -/
theorem debugOpt_names {α : Type} (name : String) (v : Option α) (fmt : α → Except Fault String)
    (rest : Except Fault (List (String × String))) (ns : List String) (b : Bool) (hb : v.isSome = b) (hf : ∀ a, v = some a → ∃ s, fmt a = .ok s)
    (hr : ∃ fs, rest = .ok fs ∧ fs.map Prod.fst = ns) :
    ∃ fs, debugOpt name v fmt rest = .ok fs ∧ fs.map Prod.fst = if b then name :: ns else ns := by
  obtain ⟨fs, rfl, rfl⟩ := hr
  subst hb
  cases v with
  | none => exact ⟨fs, rfl, rfl⟩
  | some a =>
    obtain ⟨s, hs⟩ := hf a rfl
    refine ⟨(name, s) :: fs, ?_, rfl⟩
    simp only [debugOpt, hs]
    rfl

/-- **C61** The fields `{:?}` prints for a sample are those `sample_type` asks for, in the order of declaration, each once. -/
theorem c61_sample_names (x : Outside) (host decl : Order) {st : U64} {hw : Bool} {s : Sample Cow} (h : PresentIff st hw s) :
    ∃ fs, s.debugFields x host decl = .ok fs ∧
      fs.map Prod.fst = ((sampleFieldNames st hw).filter (·.2)).map Prod.fst := by
  have key : ∀ (l : List (String × Bool)), (l.filter (·.2)).map Prod.fst =
      l.foldr (fun f ns => if f.2 then f.1 :: ns else ns) [] := by
    intro l
    induction l with
    | nil => rfl
    | cons f l ih => rw [List.filter_cons, List.foldr_cons, ← ih]; split <;> rfl
  rw [key]
  unfold Sample.debugFields sampleFieldNames
  simp only [List.foldr_cons, List.foldr_nil]
  have ok : ∀ {α : Type} (v : Option α) (g : α → String), ∀ a, v = some a → ∃ s, (.ok ∘ g : α → Except Fault String) a = .ok s :=
    fun _ g a _ => ⟨g a, rfl⟩
  refine debugOpt_names _ _ _ _ _ _ h.ip (ok _ _) ?_
  refine debugOpt_names _ _ _ _ _ _ h.pid (ok _ _) ?_
  refine debugOpt_names _ _ _ _ _ _ h.tid (ok _ _) ?_
  refine debugOpt_names _ _ _ _ _ _ h.time (ok _ _) ?_
  refine debugOpt_names _ _ _ _ _ _ h.addr (ok _ _) ?_
  refine debugOpt_names _ _ _ _ _ _ h.id (ok _ _) ?_
  refine debugOpt_names _ _ _ _ _ _ h.streamId (ok _ _) ?_
  refine debugOpt_names _ _ _ _ _ _ h.cpu (ok _ _) ?_
  refine debugOpt_names _ _ _ _ _ _ h.period (ok _ _) ?_
  refine debugOpt_names _ _ _ _ _ _ h.values (fun g _ => g.debug_ok) ?_
  refine debugOpt_names _ _ _ _ _ _ h.callchain (ok _ _) ?_
  refine debugOpt_names _ _ _ _ _ _ h.raw (ok _ _) ?_
  refine debugOpt_names _ _ _ _ _ _ h.lbrHwIndex (ok _ _) ?_
  refine debugOpt_names _ _ _ _ _ _ h.lbr (fun _ _ => ⟨_, rfl⟩) ?_
  refine debugOpt_names _ _ _ _ _ _ h.regsUser (ok _ _) ?_
  refine debugOpt_names _ _ _ _ _ _ h.stackUser (ok _ _) ?_
  refine debugOpt_names _ _ _ _ _ _ h.weight (ok _ _) ?_
  refine debugOpt_names _ _ _ _ _ _ h.dataSrc (ok _ _) ?_
  refine debugOpt_names _ _ _ _ _ _ h.transaction (fun _ _ => ⟨_, rfl⟩) ?_
  refine debugOpt_names _ _ _ _ _ _ h.regsIntr (ok _ _) ?_
  refine debugOpt_names _ _ _ _ _ _ h.physAddr (ok _ _) ?_
  refine debugOpt_names _ _ _ _ _ _ h.aux (ok _ _) ?_
  refine debugOpt_names _ _ _ _ _ _ h.cgroup (ok _ _) ?_
  refine debugOpt_names _ _ _ _ _ _ h.dataPageSize (ok _ _) ?_
  refine debugOpt_names _ _ _ _ _ _ h.codePageSize (ok _ _) ?_
  exact ⟨[], rfl, rfl⟩

/-- **C61** for the samples `parse_record` returns. -/
theorem c61_sample (x : Outside) (host decl : Order) (hp : RepP p f) {s : Sample Cow} (h : (P.parseRecord p).res = .ok (.sample s)) :
    ∃ fs, s.debugFields x host decl = .ok fs ∧
      fs.map Prod.fst = ((sampleFieldNames f.cfg.sampleType f.cfg.branchHwIndex).filter (·.2)).map Prod.fst :=
  c61_sample_names x host decl (c18_record hp h)

omit [Formatter] in
/-- The values printed are those of the accessors. -/
theorem debugOpt_mem {α : Type} {name : String} {v : Option α} {fmt : α → Except Fault String}
    {rest : Except Fault (List (String × String))} {fs : List (String × String)} (h : debugOpt name v fmt rest = .ok fs) :
    ∃ fs', rest = .ok fs' ∧ ∀ n t, (n, t) ∈ fs ↔ (n = name ∧ ∃ a, v = some a ∧ fmt a = .ok t) ∨ (n, t) ∈ fs' := by
  cases v with
  | none => exact ⟨fs, h, fun n t => by simp⟩
  | some a =>
    unfold debugOpt at h
    simp only at h
    cases hf : fmt a with
    | error e => rw [hf] at h; cases h
    | ok s =>
      rw [hf] at h
      cases hr : rest with
      | error e => rw [hr] at h; cases h
      | ok fs' =>
        rw [hr] at h
        refine ⟨fs', rfl, fun n t => ?_⟩
        cases h
        simp [hf, eq_comm]

/-- **C61** Every field printed for a sample shows the value its accessor returns, and every value an accessor returns is shown. -/
theorem c61_sample_values (x : Outside) (host decl : Order) {s : Sample Cow} {fs : List (String × String)}
    (h : s.debugFields x host decl = .ok fs) (n t : String) : (n, t) ∈ fs ↔
    (n = "ip" ∧ ∃ a, s.ip = some a ∧ t = debugNum a) ∨
    (n = "pid" ∧ ∃ a, s.pid = some a ∧ t = debugNum a) ∨
    (n = "tid" ∧ ∃ a, s.tid = some a ∧ t = debugNum a) ∨
    (n = "time" ∧ ∃ a, s.time = some a ∧ t = debugNum a) ∨
    (n = "addr" ∧ ∃ a, s.addr = some a ∧ t = textOf (hexAddr a)) ∨
    (n = "id" ∧ ∃ a, s.id = some a ∧ t = debugNum a) ∨
    (n = "stream_id" ∧ ∃ a, s.streamId = some a ∧ t = debugNum a) ∨
    (n = "cpu" ∧ ∃ a, s.cpu = some a ∧ t = debugNum a) ∨
    (n = "period" ∧ ∃ a, s.period = some a ∧ t = debugNum a) ∨
    (n = "values" ∧ ∃ a, s.values = some a ∧ a.debug = .ok t) ∨
    (n = "callchain" ∧ ∃ a, s.callchain = some a ∧ t = debugNums a.data) ∨
    (n = "raw" ∧ ∃ a, s.raw = some a ∧ t = debugNums a.data) ∨
    (n = "lbr_hw_index" ∧ ∃ a, s.lbrHwIndex = some a ∧ t = debugNum a) ∨
    (n = "lbr" ∧ ∃ a, s.lbr = some a ∧ t = debugList (a.data.map x.branch)) ∨
    (n = "regs_user" ∧ ∃ a, s.regsUser = some a ∧ t = a.debug x) ∨
    (n = "stack_user" ∧ ∃ a, s.stackUser = some a ∧ t = debugNums a.data) ∨
    (n = "weight" ∧ ∃ a, s.weight = some a ∧ t = debugNum a) ∨
    (n = "data_src" ∧ ∃ a, s.dataSrc = some a ∧ t = DataSource.debug x host decl a) ∨
    (n = "transaction" ∧ ∃ a, s.transaction = some a ∧ t = x.flags "Txn" a.toNat) ∨
    (n = "regs_intr" ∧ ∃ a, s.regsIntr = some a ∧ t = a.debug x) ∨
    (n = "phys_addr" ∧ ∃ a, s.physAddr = some a ∧ t = textOf (hexAddr a)) ∨
    (n = "aux" ∧ ∃ a, s.aux = some a ∧ t = debugNums a.data) ∨
    (n = "cgroup" ∧ ∃ a, s.cgroup = some a ∧ t = debugNum a) ∨
    (n = "data_page_size" ∧ ∃ a, s.dataPageSize = some a ∧ t = debugNum a) ∨
    (n = "code_page_size" ∧ ∃ a, s.codePageSize = some a ∧ t = debugNum a) := by
  unfold Sample.debugFields at h
  obtain ⟨r0, h, e0⟩ := debugOpt_mem h
  obtain ⟨r1, h, e1⟩ := debugOpt_mem h
  obtain ⟨r2, h, e2⟩ := debugOpt_mem h
  obtain ⟨r3, h, e3⟩ := debugOpt_mem h
  obtain ⟨r4, h, e4⟩ := debugOpt_mem h
  obtain ⟨r5, h, e5⟩ := debugOpt_mem h
  obtain ⟨r6, h, e6⟩ := debugOpt_mem h
  obtain ⟨r7, h, e7⟩ := debugOpt_mem h
  obtain ⟨r8, h, e8⟩ := debugOpt_mem h
  obtain ⟨r9, h, e9⟩ := debugOpt_mem h
  obtain ⟨r10, h, e10⟩ := debugOpt_mem h
  obtain ⟨r11, h, e11⟩ := debugOpt_mem h
  obtain ⟨r12, h, e12⟩ := debugOpt_mem h
  obtain ⟨r13, h, e13⟩ := debugOpt_mem h
  obtain ⟨r14, h, e14⟩ := debugOpt_mem h
  obtain ⟨r15, h, e15⟩ := debugOpt_mem h
  obtain ⟨r16, h, e16⟩ := debugOpt_mem h
  obtain ⟨r17, h, e17⟩ := debugOpt_mem h
  obtain ⟨r18, h, e18⟩ := debugOpt_mem h
  obtain ⟨r19, h, e19⟩ := debugOpt_mem h
  obtain ⟨r20, h, e20⟩ := debugOpt_mem h
  obtain ⟨r21, h, e21⟩ := debugOpt_mem h
  obtain ⟨r22, h, e22⟩ := debugOpt_mem h
  obtain ⟨r23, h, e23⟩ := debugOpt_mem h
  obtain ⟨r24, h, e24⟩ := debugOpt_mem h
  cases h
  rw [e0 n t, e1 n t, e2 n t, e3 n t, e4 n t, e5 n t, e6 n t, e7 n t, e8 n t, e9 n t, e10 n t, e11 n t, e12 n t, e13 n t, e14 n t, e15 n t, e16 n t, e17 n t, e18 n t, e19 n t, e20 n t, e21 n t, e22 n t, e23 n t, e24 n t]
  simp only [Function.comp, Except.ok.injEq, List.not_mem_nil, or_false, @eq_comm _ _ t]

/-- **C61** Every field printed for a `sample_id` trailer is an accessor's value, and conversely. -/
theorem c61_sample_id (s : SampleId) : ∃ fs, s.debugFields = .ok fs ∧ ∀ n t, (n, t) ∈ fs ↔
    (n = "pid" ∧ ∃ a, s.pid = some a ∧ t = debugNum a) ∨ (n = "tid" ∧ ∃ a, s.tid = some a ∧ t = debugNum a) ∨
    (n = "time" ∧ ∃ a, s.time = some a ∧ t = debugNum a) ∨ (n = "id" ∧ ∃ a, s.id = some a ∧ t = debugNum a) ∨
    (n = "stream_id" ∧ ∃ a, s.streamId = some a ∧ t = debugNum a) ∨ (n = "cpu" ∧ ∃ a, s.cpu = some a ∧ t = debugNum a) := by
  obtain ⟨pid, tid, time, id, sid, cpu⟩ := s
  cases pid <;> cases tid <;> cases time <;> cases id <;> cases sid <;> cases cpu <;>
    exact ⟨_, rfl, fun n t => by simp [Prod.ext_iff]⟩

/-- **C61** `ReadValue` prints its value and the fields its accessors return, in order. -/
theorem c61_read_value (v : ReadValue) : v.debugFields = [("value", debugNum v.value)] ++
    (v.getTimeEnabled.map fun a => ("time_enabled", debugNum a)).toList ++
    (v.getTimeRunning.map fun a => ("time_running", debugNum a)).toList ++
    (v.getId.map fun a => ("id", debugNum a)).toList ++ (v.getLost.map fun a => ("lost", debugNum a)).toList := by
  unfold ReadValue.debugFields debugIf ReadValue.getTimeEnabled ReadValue.getTimeRunning ReadValue.getId ReadValue.getLost thenSome
  cases contains v.readFormat ReadFormat.TOTAL_TIME_ENABLED <;> cases contains v.readFormat ReadFormat.TOTAL_TIME_RUNNING <;>
    cases contains v.readFormat ReadFormat.ID <;> cases contains v.readFormat ReadFormat.LOST <;> rfl

/-- **C61** `GroupEntry` likewise. -/
theorem c61_group_entry (e : GroupEntry) : e.debugFields = [("value", debugNum e.value)] ++
    (e.getId.map fun a => ("id", debugNum a)).toList ++ (e.getLost.map fun a => ("lost", debugNum a)).toList := by
  unfold GroupEntry.debugFields debugIf GroupEntry.getId GroupEntry.getLost thenSome
  cases contains e.readFormat ReadFormat.ID <;> cases contains e.readFormat ReadFormat.LOST <;> rfl

/-- **C61** `ReadGroup` prints the times its accessors return and all its entries. -/
theorem c61_read_group (g : ReadGroup Cow) : ∃ es : List GroupEntry, g.entries.collect (g.len + 1) = .ok es ∧
    g.debugFields = .ok ((g.getTimeEnabled.map fun a => ("time_enabled", debugNum a)).toList ++
      (g.getTimeRunning.map fun a => ("time_running", debugNum a)).toList ++
      [("entries", debugList (es.map GroupEntry.debug))]) := by
  obtain ⟨cs, h1, h2, _⟩ := g.counters_exist
  refine ⟨cs.map (KCounter.entry g.readFormat), ?_, ?_⟩
  · rw [h1, iterOf_collect _ _ _ (by unfold ReadGroup.len; rw [h1, iterOf_len]; omega)]
  · unfold ReadGroup.debugFields
    rw [h1, iterOf_collect _ _ _ (by rw [h2]; exact Nat.lt_succ_of_le (Nat.div_le_self _ _))]
    unfold debugIf ReadGroup.getTimeEnabled ReadGroup.getTimeRunning thenSome
    simp only
    cases contains g.readFormat ReadFormat.TOTAL_TIME_ENABLED <;> cases contains g.readFormat ReadFormat.TOTAL_TIME_RUNNING <;> rfl

omit [Formatter] in
theorem debugByteStr_ok (x : Outside) (bs : List Byte) : ∃ s, debugByteStr x bs = .ok s := by
  obtain ⟨ps, _, h, _⟩ := c44_name bs (fun _ => []) (fun _ => []) (fun _ => by simp)
  unfold debugByteStr
  rw [h]
  exact ⟨_, rfl⟩

/-- **C61** Printing never panics: whatever `parse_record` returns can be printed. -/
theorem c61_prints (x : Outside) (host decl : Order) (hp : RepP p f) {r : Record Cow} (h : (P.parseRecord p).res = .ok r) :
    ∃ s, r.debug x host decl = .ok s := by
  cases r with
  | mmap m =>
    obtain ⟨s, hs⟩ := debugByteStr_ok x m.filename.data
    simp only [Record.debug, Mmap.debug, hs]
    exact ⟨_, rfl⟩
  | comm m =>
    obtain ⟨s, hs⟩ := debugByteStr_ok x m.comm.data
    simp only [Record.debug, Comm.debug, hs]
    exact ⟨_, rfl⟩
  | ksymbol m =>
    obtain ⟨s, hs⟩ := debugByteStr_ok x m.name.data
    simp only [Record.debug, KSymbol.debug, hs]
    exact ⟨_, rfl⟩
  | cgroup m =>
    obtain ⟨s, hs⟩ := debugByteStr_ok x m.path.data
    simp only [Record.debug, CGroup.debug, hs]
    exact ⟨_, rfl⟩
  | mmap2 m =>
    obtain ⟨s, hs⟩ := debugByteStr_ok x m.filename.data
    obtain ⟨b, hb⟩ := Option.isSome_iff_exists.1 (c13_record_build_id_returns hp h)
    have : ∃ d, m.debugDetail = .ok d := by
      unfold Mmap2.debugDetail
      rw [hb]
      cases m.detail <;> cases b <;> exact ⟨_, rfl⟩
    obtain ⟨d, hd⟩ := this
    simp only [Record.debug, Mmap2.debug, hs, hd]
    exact ⟨_, rfl⟩
  | sample s =>
    obtain ⟨fs, h1, _⟩ := c61_sample x host decl hp h
    simp only [Record.debug, Sample.debug, h1]
    exact ⟨_, rfl⟩
  | _ => exact ⟨_, rfl⟩

omit [Formatter] in
/-- A sample of an address and a period, printed: the text of all of it. -/
example : (match (P.parseRecord (Parser.new (⟨0, (KRecord.mk 0 (.sample { demoSampleBody with addr := 0xFF01, period := 12 })
      ⟨1, 2, 3, 4, 5, 6, 7, 8⟩).enc .little { demoCfg with config := ⟨ConfigFlags.new 0#64 0x108#64 false false 0#16, 0#64, 0#64⟩ }⟩ : Slice)
      { demoCfg with config := ⟨ConfigFlags.new 0#64 0x108#64 false false 0#16, 0#64, 0#64⟩ })).res with
    | .ok r => letI := plain; (r.debug ⟨fun _ => [], fun _ _ => "", fun _ => ""⟩ .little .little).toOption ==
        some "Sample(Sample { addr: 0x0000000000FF01, period: 12, .. })"
    | .error _ => false) = true := by decide +kernel

end Perf
