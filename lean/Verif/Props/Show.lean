import Verif.Spec.Show
import Verif.Props.Debug
/-!
# C68, C78: the whole text `{:?}` and `{:#?}` print
-/
namespace Perf

theorem indented_append (d : Nat) (a b : Chars) : indented d (a ++ b) = indented d a ++ indented d b := List.flatMap_append ..

theorem indented_cons (d : Nat) (c : Char) (b : Chars) : indented d (c :: b) = (if c = '\n' then newLine d else [c]) ++ indented d b :=
  List.flatMap_cons

theorem indented_nil (d : Nat) : indented d [] = [] := rfl

theorem indented_plain (d : Nat) {t : Chars} (h : '\n' ∉ t) : indented d t = t := by
  induction t with
  | nil => rfl
  | cons c t ih =>
    rw [indented_cons, ih (fun h' => h (List.mem_cons_of_mem _ h')), if_neg (fun e : c = '\n' => h (by simp [e]))]
    rfl

theorem indented_newLine (d : Nat) : indented 1 (newLine d) = newLine (d + 1) := by
  unfold newLine
  rw [indented_cons, if_pos rfl, indented_plain _ (fun h => by simpa using List.eq_of_mem_replicate h)]
  simp only [newLine, List.cons_append, List.replicate_append_replicate]
  congr 2; omega

theorem indented_zero (t : Chars) : indented 0 t = t := by
  induction t with
  | nil => rfl
  | cons c t ih => rw [indented_cons, ih]; split <;> simp_all [newLine]

theorem indented_add (d : Nat) (t : Chars) : indented 1 (indented d t) = indented (d + 1) t := by
  induction t with
  | nil => rfl
  | cons c t ih =>
    rw [indented_cons, indented_append, indented_cons, ih]
    split
    · rw [indented_newLine]
    · next h => rw [indented_plain _ (by simpa using fun e => h e.symm)]

/-- What `PadAdapter` makes of a value and the comma after it. -/
theorem padChars_comma (b : Bool) (t : Chars) : padChars b (t ++ [',', '\n']) =
    (if b then [' ', ' ', ' ', ' '] else []) ++ indented 1 t ++ [',', '\n'] := by
  induction t generalizing b with
  | nil => cases b <;> rfl
  | cons c t ih =>
    rw [List.cons_append, padChars, ih, indented_cons]
    by_cases h : c = '\n'
    · subst h; simp [newLine, List.replicate]
    · simp [h]

theorem digit_plain (b n : Nat) (hb : 1 < b) : ∀ c ∈ Nat.toDigits b n, c ≠ '\n' ∧ c.toUpper ≠ '\n' := by
  have hd : ∀ k, Nat.digitChar k ≠ '\n' ∧ (Nat.digitChar k).toUpper ≠ '\n' := by
    intro k
    by_cases h : k < 16
    · exact (by decide +kernel : ∀ k : Fin 16, Nat.digitChar k.val ≠ '\n' ∧ (Nat.digitChar k.val).toUpper ≠ '\n') ⟨k, h⟩
    · have : Nat.digitChar k = '*' := by
        unfold Nat.digitChar
        repeat rw [if_neg (by omega)]
      rw [this]; decide
  induction n using Nat.strongRecOn with
  | _ n ih =>
    by_cases h : n < b
    · rw [Nat.toDigits_of_lt_base h]
      simpa using hd n
    · rw [Nat.toDigits_of_base_le hb (by omega)]
      intro c hc
      rcases List.mem_append.1 hc with hc | hc
      · exact ih (n / b) (Nat.div_lt_self (by omega) hb) c hc
      · rw [List.mem_singleton.1 hc]; exact hd _


theorem upperDigit_char (n : Nat) (h : n < 16) : Char.ofNat (upperDigit n) = (Nat.digitChar n).toUpper := by
  have : ∀ m : Fin 16, Char.ofNat (upperDigit m.val) = (Nat.digitChar m.val).toUpper := by decide +kernel
  exact this ⟨n, h⟩

theorem upperHexRev_digits (fuel n : Nat) (h : n < 16 ^ fuel) (h0 : 0 < fuel) :
    (upperHexRev fuel n).reverse.map Char.ofNat = (Nat.toDigits 16 n).map Char.toUpper := by
  induction fuel generalizing n with
  | zero => omega
  | succ k ih =>
    rw [upperHexRev, List.reverse_cons, List.map_append, List.map_singleton, upperDigit_char _ (Nat.mod_lt _ (by omega))]
    by_cases hd : n / 16 = 0
    · have : n < 16 := by omega
      rw [if_pos hd, Nat.toDigits_of_lt_base this, Nat.mod_eq_of_lt this]
      rfl
    · rw [if_neg hd, ih (n / 16) (by rw [Nat.pow_succ] at h; omega) (by
        rcases k with _ | k
        · simp at h; omega
        · omega), Nat.toDigits_of_base_le (by omega) (by omega : 16 ≤ n), List.map_append]
      rfl

theorem lowerDigit_char (n : Nat) (h : n < 16) : Char.ofNat (lowerDigit n) = Nat.digitChar n := by
  have : ∀ m : Fin 16, Char.ofNat (lowerDigit m.val) = Nat.digitChar m.val := by decide +kernel
  exact this ⟨n, h⟩

theorem lowerHexRev_digits (fuel n : Nat) (h : n < 16 ^ fuel) (h0 : 0 < fuel) :
    (lowerHexRev fuel n).reverse.map Char.ofNat = Nat.toDigits 16 n := by
  induction fuel generalizing n with
  | zero => omega
  | succ k ih =>
    rw [lowerHexRev, List.reverse_cons, List.map_append, List.map_singleton, lowerDigit_char _ (Nat.mod_lt _ (by omega))]
    by_cases hd : n / 16 = 0
    · have : n < 16 := by omega
      rw [if_pos hd, Nat.toDigits_of_lt_base this, Nat.mod_eq_of_lt this]
      rfl
    · rw [if_neg hd, ih (n / 16) (by rw [Nat.pow_succ] at h; omega) (by
        rcases k with _ | k
        · simp at h; omega
        · omega), Nat.toDigits_of_base_le (by omega) (by omega : 16 ≤ n)]

theorem textOf_toList (l : List Nat) : (textOf l).toList = l.map Char.ofNat := by simp [textOf]

/-! ## One layout for both forms -/

section
variable [fmt : Formatter]

/-- The form the formatter asks for. -/
def Formatter.depth : Option Nat := if fmt.alternate then some 0 else none

omit fmt in
/-- Nothing from outside contains a line break in the short form. -/
structure _root_.Perf.Outside.OneLine (x : Outside) : Prop where
  escapeText : ∀ bs, '\n' ∉ (x.escapeText bs).map Char.ofNat
  flags : ∀ rx ty n, '\n' ∉ (@Outside.flags x ⟨false, rx⟩ ty n).toList
  branch : ∀ rx b, '\n' ∉ (@Outside.branch x ⟨false, rx⟩ b).toList

/-- The text `s` is the layout `t`, the layout at a greater depth is the same with more blanks, and the short form is on one line. -/
structure Rendered (x : Outside) (s : String) (t : Layout) : Prop where
  now : s.toList = t fmt.depth
  deeper : ∀ d, indented 1 (t (some d)) = t (some (d + 1))
  line : x.OneLine → '\n' ∉ t none

/-- Items and their layouts. -/
inductive RenderedItems (x : Outside) : List String → List Layout → Prop
  | nil : RenderedItems x [] []
  | cons {s t ss ts} : Rendered x s t → RenderedItems x ss ts → RenderedItems x (s :: ss) (t :: ts)

/-- Fields and their layouts. -/
inductive RenderedFields (x : Outside) : List (String × String) → List (String × Layout) → Prop
  | nil : RenderedFields x [] []
  | cons {n s t ss ts} (h : Rendered x s t) (hs : RenderedFields x ss ts) (hn : '\n' ∉ n.toList := by decide) :
    RenderedFields x ((n, s) :: ss) ((n, t) :: ts)

variable {x : Outside}

theorem RenderedItems.map {α : Type} (l : List α) {g : α → String} {h : α → Layout} (hl : ∀ a, Rendered x (g a) (h a)) : RenderedItems x (l.map g) (l.map h) := by
  induction l with
  | nil => exact .nil
  | cons a l ih => exact .cons (hl a) ih

theorem RenderedFields.append {a b : List (String × String)} {a' b' : List (String × Layout)} (h : RenderedFields x a a') (h' : RenderedFields x b b') :
    RenderedFields x (a ++ b) (a' ++ b') := by
  induction h with
  | nil => exact h'
  | cons h _ hn ih => exact .cons h ih hn

theorem Rendered.text (s : String) (hl : x.OneLine → '\n' ∉ s.toList) : Rendered x s (text s.toList) where
  now := by
    unfold Formatter.depth
    split
    · exact (indented_zero _).symm
    · rfl
  deeper d := indented_add d _
  line := hl

theorem Rendered.text' {s : String} {t : Chars} (h : s.toList = t) (hl : x.OneLine → '\n' ∉ t) : Rendered x s (Perf.text t) := by
  subst h
  exact Rendered.text s hl

theorem Rendered.outer {s : String} {a b : Chars} (h : s.toList = if fmt.alternate then b else a)
    (hl : x.OneLine → '\n' ∉ a) : Rendered x s (outer a b) where
  now := by
    rw [h]
    unfold Formatter.depth
    split
    · exact (indented_zero _).symm
    · rfl
  deeper d := indented_add d _
  line := hl

/-- One item of the long form. -/
theorem Rendered.item {s : String} {t : Layout} (h : Rendered x s t) (ha : fmt.alternate = true) (pre : String) :
    '\n' :: (pad (pre ++ s ++ ",\n")).toList = newLine 1 ++ Perf.text pre.toList (some 1) ++ t (some 1) ++ [',', '\n'] := by
  have h0 : s.toList = t (some 0) := by rw [h.now, Formatter.depth, if_pos ha]
  have : (pad (pre ++ s ++ ",\n")).toList = padChars true ((pre.toList ++ s.toList) ++ [',', '\n']) := by simp [pad]
  rw [this, padChars_comma, indented_append, h0, h.deeper 0]
  simp [newLine, Perf.text, List.replicate]

omit fmt in
theorem joined (ss : List String) : ("".intercalate ss).toList = ss.flatMap String.toList := by
  rw [String.toList_intercalate]
  induction ss with
  | nil => rfl
  | cons s ss ih =>
    cases ss with
    | nil => simp [List.intercalate]
    | cons u us => simp_all [List.intercalate]

theorem RenderedItems.long {ss : List String} {ts : List Layout} (h : RenderedItems x ss ts) (ha : fmt.alternate = true) :
    '\n' :: (ss.map fun s => pad (s ++ ",\n")).flatMap String.toList =
      (ts.flatMap fun t => newLine 1 ++ t (some 1) ++ [',']) ++ ['\n'] := by
  induction h with
  | nil => rfl
  | cons h _ ih =>
    have := h.item ha ""
    simp only [String.empty_append] at this
    rw [List.map_cons, List.flatMap_cons, ← List.cons_append, this, List.flatMap_cons, List.append_assoc _ _ ['\n'], ← ih]
    simp [Perf.text, indented_nil]

theorem RenderedFields.long {ss : List (String × String)} {ts : List (String × Layout)} (h : RenderedFields x ss ts) (ha : fmt.alternate = true) :
    '\n' :: (ss.map fun f => pad (f.1 ++ ": " ++ f.2 ++ ",\n")).flatMap String.toList =
      (ts.flatMap fun f => newLine 1 ++ Perf.text f.1.toList (some 1) ++ ':' :: ' ' :: f.2 (some 1) ++ [',']) ++ ['\n'] := by
  induction h with
  | nil => rfl
  | @cons n s t ss ts h _ _ ih =>
    have := h.item ha (n ++ ": ")
    have e : Perf.text (n ++ ": ").toList (some 1) = Perf.text n.toList (some 1) ++ [':', ' '] := by
      simp only [Perf.text, String.toList_append, indented_append]; rfl
    rw [List.map_cons, List.flatMap_cons, ← List.cons_append, this, List.flatMap_cons, List.append_assoc _ _ ['\n'], ← ih, e]
    simp

theorem RenderedItems.short {ss : List String} {ts : List Layout} (h : RenderedItems x ss ts) (ha : fmt.alternate = false) :
    ss.map String.toList = ts.map (· none) := by
  induction h with
  | nil => rfl
  | cons h _ ih => rw [List.map_cons, List.map_cons, ih, h.now, Formatter.depth, ha]; rfl

theorem RenderedItems.deeper {ss : List String} {ts : List Layout} (h : RenderedItems x ss ts) (d : Nat) :
    indented 1 (ts.flatMap fun t => newLine d ++ t (some d) ++ [',']) = ts.flatMap fun t => newLine (d + 1) ++ t (some (d + 1)) ++ [','] := by
  induction h with
  | nil => rfl
  | cons h _ ih => rw [List.flatMap_cons, indented_append, ih, indented_append, indented_append, indented_newLine, h.deeper]; rfl

theorem RenderedFields.deeper {ss : List (String × String)} {ts : List (String × Layout)} (h : RenderedFields x ss ts) (d : Nat) :
    indented 1 (ts.flatMap fun f => newLine d ++ Perf.text f.1.toList (some d) ++ ':' :: ' ' :: f.2 (some d) ++ [',']) =
      ts.flatMap fun f => newLine (d + 1) ++ Perf.text f.1.toList (some (d + 1)) ++ ':' :: ' ' :: f.2 (some (d + 1)) ++ [','] := by
  induction h with
  | nil => rfl
  | cons h _ _ ih =>
    rw [List.flatMap_cons, indented_append, ih, indented_append, indented_append, indented_append, indented_newLine, indented_cons,
      indented_cons, h.deeper, Perf.text, indented_add]
    rfl

theorem RenderedItems.line {ss : List String} {ts : List Layout} (h : RenderedItems x ss ts) (hx : x.OneLine) : ∀ t ∈ ts, '\n' ∉ t none := by
  induction h with
  | nil => exact nofun
  | cons h _ ih =>
    intro t ht
    rcases List.mem_cons.1 ht with rfl | ht
    · exact h.line hx
    · exact ih t ht

omit fmt in
theorem itemChars_eq (ts : List String) : (", ".intercalate ts).toList ++ [']'] = itemChars (ts.map String.toList) := by
  induction ts with
  | nil => rfl
  | cons t ts ih =>
    cases ts with
    | nil => simp [itemChars]
    | cons u us =>
      rw [List.map_cons, List.map_cons, itemChars]
      · rw [List.map_cons] at ih
        rw [← ih]
        simp [String.toList_intercalate, List.intercalate]
      · simp

theorem Rendered.list {ss : List String} {ts : List Layout} (h : RenderedItems x ss ts) : Rendered x (debugList ss) (listChars ts) where
  now := by
    unfold debugList Formatter.depth
    cases ha : fmt.alternate with
    | false =>
      rw [if_neg (by simp), if_neg (by simp), listChars, ← h.short ha, ← itemChars_eq]
      simp
    | true =>
      rw [if_pos rfl, if_pos rfl, listChars]
      have := h.long ha
      cases h with
      | nil => rfl
      | cons =>
        simp only [List.isEmpty_cons, Bool.false_eq_true, if_false, reduceCtorEq]
        simp only [String.toList_append, joined]
        rw [show "\n".toList = ['\n'] from rfl, List.singleton_append, this]
        simp [newLine]
  deeper d := by
    simp only [listChars]
    rw [indented_append, indented_append, indented_cons, h.deeper]
    have : indented 1 (if ts = [] then [] else newLine d) = if ts = [] then [] else newLine (d + 1) := by
      split
      · rfl
      · rw [indented_newLine]
    rw [this]
    rfl
  line hx := by
    have key : ∀ ts : List Chars, (∀ t ∈ ts, '\n' ∉ t) → '\n' ∉ itemChars ts := by
      intro ts
      induction ts with
      | nil => intro _; decide
      | cons t ts ih =>
        intro hts
        have h1 := hts t List.mem_cons_self
        have h2 := ih fun u hu => hts u (List.mem_cons_of_mem _ hu)
        cases ts with
        | nil => simpa [itemChars] using h1
        | cons u us => simp only [itemChars, List.mem_append, List.mem_cons]; rintro (h | h | h | h) <;> first | contradiction | cases h
    have : '\n' ∉ itemChars (ts.map (· none)) := key _ (by
      intro t ht
      obtain ⟨u, hu, rfl⟩ := List.mem_map.1 ht
      exact h.line hx u hu)
    simpa [listChars] using this

theorem RenderedFields.oneLine {ss : List (String × String)} {ts : List (String × Layout)} (h : RenderedFields x ss ts) (ha : fmt.alternate = false)
    (more : Bool) (hn : ss ≠ []) : (", ".intercalate (ss.map fun f => f.1 ++ ": " ++ f.2)).toList ++ closeChars more = fieldChars more ts := by
  induction h with
  | nil => exact absurd rfl hn
  | @cons n s t ss ts h hs _ ih =>
    have e : s.toList = t none := by rw [h.now, Formatter.depth, ha]; rfl
    cases hs with
    | nil => simp [fieldChars, e]
    | @cons n' s' t' ss ts =>
      have ih := ih (by simp)
      rw [fieldChars, ← ih]
      · simp [String.toList_intercalate, List.intercalate, e]
      · simp

omit fmt in
theorem not_mem_fields {x : Outside} [Formatter] {ss : List (String × String)} {ts : List (String × Layout)} (h : RenderedFields x ss ts) (hx : x.OneLine)
    (more : Bool) : '\n' ∉ fieldChars more ts := by
  have hc : '\n' ∉ closeChars more := by cases more <;> decide
  induction h with
  | nil => simp [fieldChars]
  | @cons n s t ss ts h hs hn ih =>
    have ht := h.line hx
    cases hs with
    | nil => simp only [fieldChars, List.mem_append, List.mem_cons]; rintro ((h | h | h | h) | h) <;> first | contradiction | cases h
    | cons => simp only [fieldChars, List.mem_append, List.mem_cons] at *; rintro ((h | h | h | h) | h | h | h) <;> first | contradiction | cases h | exact ih h

theorem struct_line {name : String} {ss : List (String × String)} {ts : List (String × Layout)} (h : RenderedFields x ss ts) (hx : x.OneLine)
    (more : Bool) (hn : '\n' ∉ name.toList) : '\n' ∉ structChars name more ts none := by
  have hf := not_mem_fields h hx more
  unfold structChars
  simp only [Perf.text]
  cases h with
  | nil => cases more <;> simp [hn]
  | cons => simp only [List.mem_append, List.mem_cons]; rintro (h | h | h | h | h) <;> first | contradiction | cases h

theorem structLong_deeper (name : String) {ss : List (String × String)} {ts : List (String × Layout)} (h : RenderedFields x ss ts) (more : Bool) (d : Nat) :
    indented 1 (structChars name more ts (some d)) = structChars name more ts (some (d + 1)) := by
  unfold structChars
  rw [indented_append]
  congr 1
  · exact indented_add d _
  · have := h.deeper (d + 1)
    cases h with
    | nil => cases more <;> rfl
    | cons =>
      simp only
      rw [indented_append, indented_append, indented_append, indented_cons, indented_cons, this, indented_newLine]
      cases more
      · rfl
      · simp only [if_true]
        rw [indented_append, indented_newLine]
        rfl

theorem Rendered.struct (name : String) {ss : List (String × String)} {ts : List (String × Layout)} (h : RenderedFields x ss ts)
    (hn : '\n' ∉ name.toList := by decide) :
    Rendered x (debugStruct name ss) (structChars name false ts) where
  now := by
    unfold debugStruct debugFields Formatter.depth structChars
    cases ha : fmt.alternate with
    | false =>
      have := h.oneLine ha false
      cases h with
      | nil => simp [Perf.text]
      | cons h hs =>
        simp only [List.isEmpty_cons, Bool.false_eq_true, if_false]
        rw [← this (by simp)]
        simp [Perf.text, closeChars]
    | true =>
      have := h.long ha
      cases h with
      | nil => simp [Perf.text, indented_zero]
      | cons h hs =>
        simp only [List.isEmpty_cons, Bool.false_eq_true, if_false, if_true]
        simp only [String.toList_append, joined, Perf.text, indented_zero]
        rw [show " {\n".toList = [' ', '{'] ++ ['\n'] from rfl, List.append_assoc, List.append_assoc, List.append_assoc,
          ← List.append_assoc ['\n'], List.singleton_append, this]
        simp [newLine, Perf.text]
  deeper := structLong_deeper name h false
  line hx := struct_line h hx false hn

theorem Rendered.structOpen (name : String) {ss : List (String × String)} {ts : List (String × Layout)} (h : RenderedFields x ss ts)
    (hn : '\n' ∉ name.toList := by decide) :
    Rendered x (debugStructOpen name ss) (structChars name true ts) where
  now := by
    unfold debugStructOpen debugFields Formatter.depth structChars
    cases ha : fmt.alternate with
    | false =>
      have := h.oneLine ha true
      cases h with
      | nil => simp [Perf.text]
      | cons h hs =>
        simp only [List.isEmpty_cons, Bool.false_eq_true, if_false]
        rw [← this (by simp)]
        simp [Perf.text, closeChars]
    | true =>
      have := h.long ha
      cases h with
      | nil => simp [Perf.text, indented_zero]
      | cons h hs =>
        simp only [List.isEmpty_cons, Bool.false_eq_true, if_false, if_true]
        simp only [String.toList_append, joined, Perf.text, indented_zero]
        rw [show " {\n".toList = [' ', '{'] ++ ['\n'] from rfl, List.append_assoc, List.append_assoc, List.append_assoc, List.append_assoc,
          ← List.append_assoc ['\n'], List.singleton_append, this]
        have e : (pad "..\n").toList = [' ', ' ', ' ', ' ', '.', '.', '\n'] := by decide
        simp [newLine, Perf.text, e, List.replicate]
  deeper := structLong_deeper name h true
  line hx := struct_line h hx true hn

theorem Rendered.tuple (name : String) {s : String} {t : Layout} (h : Rendered x s t) (hn : '\n' ∉ name.toList := by decide) :
    Rendered x (debugTuple name s) (tupleChars name t) where
  now := by
    unfold debugTuple Formatter.depth tupleChars
    cases ha : fmt.alternate with
    | false =>
      have e : s.toList = t none := by rw [h.now, Formatter.depth, ha]; rfl
      simp [e, Perf.text]
    | true =>
      have := h.item ha ""
      simp only [String.empty_append] at this
      simp only [if_true, String.toList_append]
      rw [show "(\n".toList = ['('] ++ ['\n'] from rfl, List.append_assoc, List.append_assoc, List.append_assoc,
          ← List.append_assoc ['\n'], List.singleton_append, List.singleton_append, this]
      simp [newLine, Perf.text, indented_zero, indented_nil]
  deeper d := by
    unfold tupleChars
    simp only
    rw [indented_append, indented_append, indented_append, indented_append, indented_cons, indented_cons, indented_newLine, indented_newLine, h.deeper]
    rw [Perf.text, indented_add]
    rfl
  line hx := by
    have := h.line hx
    simp [tupleChars, Perf.text, hn, this]

theorem Rendered.num {w : Nat} (n : BitVec w) (hw : w ≤ 64) : Rendered x (debugNum n) (numChars fmt.radix n.toNat) where
  now := by
    have h16 : n.toNat < 16 ^ 16 := Nat.lt_of_lt_of_le n.isLt (show 2 ^ w ≤ 2 ^ 64 from Nat.pow_le_pow_right (by omega) hw)
    unfold debugNum Formatter.depth numChars
    cases fmt.alternate <;> cases fmt.radix <;> simp only
    case false.decimal | true.decimal => simp [Nat.repr]
    case false.lower | true.lower => rw [textOf_toList, List.map_append, lowerHexRev_digits 16 n.toNat h16 (by omega)]; rfl
    case false.upper | true.upper => rw [textOf_toList, List.map_append, upperHexRev_digits 16 n.toNat h16 (by omega)]; rfl
  deeper d := by
    have h10 := digit_plain 10 n.toNat (by omega)
    have h16 := digit_plain 16 n.toNat (by omega)
    unfold numChars
    cases fmt.radix <;> simp only <;> rw [indented_plain]
    · exact fun h => (h10 _ h).1 rfl
    · intro h
      simp only [List.mem_cons] at h
      rcases h with h | h | h
      · cases h
      · cases h
      · exact (h16 _ h).1 rfl
    · intro h
      simp only [List.mem_cons, List.mem_map] at h
      rcases h with h | h | ⟨c, h, hc⟩
      · cases h
      · cases h
      · exact (h16 _ h).2 hc
  line _ := by
    have h10 := digit_plain 10 n.toNat (by omega)
    have h16 := digit_plain 16 n.toNat (by omega)
    unfold numChars
    cases fmt.radix <;> simp only
    · exact fun h => (h10 _ h).1 rfl
    · exact fun h => (h16 _ h).1 rfl
    · intro h
      obtain ⟨c, h, hc⟩ := List.mem_map.1 h
      exact (h16 _ h).2 hc

theorem Rendered.nums {w : Nat} (l : List (BitVec w)) (hw : w ≤ 64) : Rendered x (debugNums l) (numsChars fmt.radix l) :=
  .list (.map l fun n => .num n hw)

theorem Rendered.flags (x : Outside) (ty : String) (n : Nat) : Rendered x (x.flags ty n) (flagChars fmt.radix x ty n) := by
  refine .outer ?_ fun h => h.flags _ _ _
  obtain ⟨a, r⟩ := fmt
  cases a <;> rfl

theorem Rendered.branch (x : Outside) (b : BranchEntry) : Rendered x (x.branch b) (branchChars fmt.radix x b) := by
  refine .outer ?_ fun h => h.branch _ _
  obtain ⟨a, r⟩ := fmt
  cases a <;> rfl

omit fmt in
theorem hex_line (n : U64) : '\n' ∉ (upperHexRev 16 n.toNat).reverse.map Char.ofNat := by
  rw [upperHexRev_digits 16 n.toNat (by have := n.isLt; omega) (by omega)]
  intro h
  obtain ⟨c, h, hc⟩ := List.mem_map.1 h
  exact (digit_plain 16 n.toNat (by omega) _ h).2 hc

theorem Rendered.addr (n : U64) : Rendered x (textOf (hexAddr n)) (addrChars n) := .text' (textOf_toList _) fun _ => by
  unfold hexAddr alternateUpperHex
  simp only [List.map_append, List.mem_append]
  rintro ((h | h) | h)
  · exact absurd h (by decide)
  · rw [List.map_replicate] at h; exact absurd (List.eq_of_mem_replicate h) (by decide)
  · exact hex_line n h

theorem Rendered.bool (b : Bool) : Rendered x (toString b) (boolChars b) := .text' (by cases b <;> decide) fun _ => by cases b <;> decide

omit fmt in
theorem hexStr_line (bs : List Byte) : '\n' ∉ (hexStr bs).map Char.ofNat := by
  have hd : ∀ n < 16, Char.ofNat (hexNibble n) ≠ '\n' := fun n hn =>
    (by decide +kernel : ∀ n : Fin 16, Char.ofNat (hexNibble n.val) ≠ '\n') ⟨n, hn⟩
  intro h
  obtain ⟨c, h, hc⟩ := List.mem_map.1 h
  obtain ⟨b, _, h⟩ := List.mem_flatMap.1 h
  have hb := b.isLt
  simp only [List.mem_cons, List.not_mem_nil, or_false] at h
  rcases h with rfl | rfl
  · exact hd _ (by rw [BitVec.toNat_and]; exact Nat.lt_of_le_of_lt Nat.and_le_right (by decide)) hc
  · exact hd _ (by rw [BitVec.toNat_ushiftRight, Nat.shiftRight_eq_div_pow]; omega) hc

omit fmt in
theorem byteStr_line (hx : x.OneLine) (ps : List Piece) : '\n' ∉ (byteStrRender x.escapeText ps).map Char.ofNat := by
  have hd : ∀ b : Byte, '\n' ∉ (escapeAscii b).map Char.ofNat := fun b =>
    (by decide +kernel : ∀ n : Fin 256, '\n' ∉ (escapeAscii ⟨n⟩).map Char.ofNat) b.toFin
  unfold byteStrRender
  simp only [List.map_append, List.mem_append, List.map_flatMap, List.mem_flatMap]
  rintro ((h | ⟨p, _, h⟩) | h)
  · exact absurd h (by decide)
  · cases p with
    | text bs => exact hx.escapeText bs h
    | byte b => exact hd b h
  · exact absurd h (by decide)

theorem RenderedFields.num {w : Nat} (name : String) (n : BitVec w) (hw : w ≤ 64) {ss : List (String × String)} {ts : List (String × Layout)}
    (h : RenderedFields x ss ts) (hn : '\n' ∉ name.toList := by decide) :
    RenderedFields x ((name, debugNum n) :: ss) (numField fmt.radix name n :: ts) := .cons (.num n hw) h hn

theorem RenderedFields.opt {w : Nat} (name : String) (v : Option (BitVec w)) (hw : w ≤ 64) (hn : '\n' ∉ name.toList := by decide) :
    RenderedFields x (v.map fun a => (name, debugNum a)).toList (optField name v (numChars fmt.radix ·.toNat)) := by
  cases v with
  | none => exact .nil
  | some a => exact .cons (.num a hw) .nil hn

/-- **C68** `ReadValue` -/
theorem c68_read_value (v : ReadValue) : Rendered x v.debug (v.chars fmt.radix) := by
  unfold ReadValue.debug ReadValue.chars
  rw [c61_read_value]
  simp only [List.append_assoc, List.singleton_append]
  exact .structOpen _ (.num _ _ (by omega) (.append (.opt _ _ (by omega)) (.append (.opt _ _ (by omega)) (.append (.opt _ _ (by omega)) (.opt _ _ (by omega))))))

theorem c68_group_entry (e : GroupEntry) : Rendered x e.debug (e.chars fmt.radix) := by
  unfold GroupEntry.debug GroupEntry.chars
  rw [c61_group_entry]
  simp only [List.singleton_append]
  exact .structOpen _ (.num _ _ (by omega) (.append (.opt _ _ (by omega)) (.opt _ _ (by omega))))

/-- **C68** `ReadGroup`: the entries are those of the iterator. -/
theorem c68_read_group (g : ReadGroup Cow) : ∃ es s, g.entries.collect (g.len + 1) = .ok es ∧ g.debug = .ok s ∧
    Rendered x s (g.chars fmt.radix es) := by
  obtain ⟨es, h1, h2⟩ := c61_read_group g
  refine ⟨es, _, h1, by unfold ReadGroup.debug; rw [h2]; rfl, ?_⟩
  exact .structOpen _ (.append (.append (.opt _ _ (by omega)) (.opt _ _ (by omega))) (.cons (.list (.map es c68_group_entry)) .nil))

theorem Registers.chars_laid (x : Outside) (r : Registers Cow) : Rendered x (r.debug x) (r.chars fmt.radix x) :=
  .struct _ (.cons (.flags ..) (.num _ _ (by omega) (.cons (.nums _ (by omega)) .nil)))

theorem DataSource.chars_laid (x : Outside) (host decl : Order) (v : U64) :
    Rendered x (DataSource.debug x host decl v) (DataSource.chars fmt.radix x host decl v) :=
  .struct _ (.cons (.flags ..) (.cons (.flags ..) (.cons (.flags ..) (.cons (.flags ..) (.cons (.flags ..) (.cons (.flags ..) (.cons (.bool _)
    (.cons (.flags ..) (.num _ _ (by omega) .nil)))))))))

/-- One optional field. -/
theorem debugOpt_laid {α : Type} (name : String) (v : Option α) (f : α → Except Fault String) (g : α → Layout)
    {rest : Except Fault (List (String × String))} {R : List (String × Layout)}
    (hf : ∀ a, v = some a → ∃ s, f a = .ok s ∧ Rendered x s (g a)) (hr : ∃ fs, rest = .ok fs ∧ RenderedFields x fs R)
    (hn : '\n' ∉ name.toList := by decide) :
    ∃ fs, debugOpt name v f rest = .ok fs ∧ RenderedFields x fs (optField name v g ++ R) := by
  obtain ⟨fs, rfl, hR⟩ := hr
  cases v with
  | none => exact ⟨fs, rfl, hR⟩
  | some a =>
    obtain ⟨s, h1, h2⟩ := hf a rfl
    exact ⟨(name, s) :: fs, by simp only [debugOpt, h1]; rfl, .cons h2 hR hn⟩

/-- **C68** `Sample` -/
theorem c68_sample (x : Outside) (host decl : Order) (s : Sample Cow) : ∃ es t,
    (∀ g, s.values = some g → g.entries.collect (g.len + 1) = .ok es) ∧ s.debug x host decl = .ok t ∧
    Rendered x t (s.chars fmt.radix x host decl es) := by
  obtain ⟨es, hes, hv⟩ : ∃ es, (∀ g, s.values = some g → g.entries.collect (g.len + 1) = .ok es) ∧
      ∀ g, s.values = some g → ∃ t, g.debug = .ok t ∧ Rendered x t (g.chars fmt.radix es) := by
    cases s.values with
    | none => exact ⟨[], nofun, nofun⟩
    | some g =>
      obtain ⟨es, t, h1, h2, h3⟩ := c68_read_group g
      refine ⟨es, ?_, ?_⟩
      · rintro _ ⟨⟩; exact h1
      · rintro _ ⟨⟩; exact ⟨t, h2, h3⟩
  have num : ∀ {w : Nat} (_ : w ≤ 64) (v : Option (BitVec w)), ∀ a, v = some a →
      ∃ s, (.ok ∘ debugNum : BitVec w → Except Fault String) a = .ok s ∧ Rendered x s (numChars fmt.radix a.toNat) :=
    fun hw _ a _ => ⟨_, rfl, .num a hw⟩
  have n64 : ∀ (v : Option U64), ∀ a, v = some a →
      ∃ s, (.ok ∘ debugNum : U64 → Except Fault String) a = .ok s ∧ Rendered x s (numChars fmt.radix a.toNat) := num (by omega)
  have n32 : ∀ (v : Option U32), ∀ a, v = some a →
      ∃ s, (.ok ∘ debugNum : U32 → Except Fault String) a = .ok s ∧ Rendered x s (numChars fmt.radix a.toNat) := num (by omega)
  have adr : ∀ (v : Option U64), ∀ a, v = some a → ∃ s, (.ok ∘ textOf ∘ hexAddr : U64 → Except Fault String) a = .ok s ∧
      Rendered x s (addrChars a) := fun _ a _ => ⟨_, rfl, .addr a⟩
  have n64s : ∀ (v : Option (Cow U64)), ∀ a, v = some a →
      ∃ s, (.ok ∘ debugNums ∘ Cow.data : Cow U64 → Except Fault String) a = .ok s ∧ Rendered x s (numsChars fmt.radix a.data) :=
    fun _ a _ => ⟨_, rfl, .nums a.data (by omega)⟩
  have n8s : ∀ (v : Option (Cow Byte)), ∀ a, v = some a →
      ∃ s, (.ok ∘ debugNums ∘ Cow.data : Cow Byte → Except Fault String) a = .ok s ∧ Rendered x s (numsChars fmt.radix a.data) :=
    fun _ a _ => ⟨_, rfl, .nums a.data (by omega)⟩
  have main : ∃ fs, s.debugFields x host decl = .ok fs ∧ Rendered x (debugStructOpen "Sample" fs) (s.chars fmt.radix x host decl es) := by
    unfold Sample.debugFields Sample.chars
    simp only [List.append_assoc]
    have key : ∀ {R : Except Fault (List (String × String))} {C : List (String × Layout)}, (∃ fs, R = .ok fs ∧ RenderedFields x fs C) →
        ∃ fs, R = .ok fs ∧ Rendered x (debugStructOpen "Sample" fs) (structChars "Sample" true C) := by
      rintro R C ⟨fs, h1, h2⟩; exact ⟨fs, h1, .structOpen _ h2⟩
    apply key
    refine debugOpt_laid _ _ _ _ (n64 _) ?_
    refine debugOpt_laid _ _ _ _ (n32 _) ?_
    refine debugOpt_laid _ _ _ _ (n32 _) ?_
    refine debugOpt_laid _ _ _ _ (n64 _) ?_
    refine debugOpt_laid _ _ _ _ (adr _) ?_
    refine debugOpt_laid _ _ _ _ (n64 _) ?_
    refine debugOpt_laid _ _ _ _ (n64 _) ?_
    refine debugOpt_laid _ _ _ _ (n32 _) ?_
    refine debugOpt_laid _ _ _ _ (n64 _) ?_
    refine debugOpt_laid _ _ _ _ hv ?_
    refine debugOpt_laid _ _ _ _ (n64s _) ?_
    refine debugOpt_laid _ _ _ _ (n8s _) ?_
    refine debugOpt_laid _ _ _ _ (n64 _) ?_
    refine debugOpt_laid _ _ _ _ (fun a _ => ⟨_, rfl, .list (.map a.data (.branch x))⟩) ?_
    refine debugOpt_laid _ _ _ _ (fun a _ => ⟨_, rfl, Registers.chars_laid x a⟩) ?_
    refine debugOpt_laid _ _ _ _ (n8s _) ?_
    refine debugOpt_laid _ _ _ _ (n64 _) ?_
    refine debugOpt_laid _ _ _ _ (fun a _ => ⟨_, rfl, DataSource.chars_laid x host decl a⟩) ?_
    refine debugOpt_laid _ _ _ _ (fun a _ => ⟨_, rfl, .flags ..⟩) ?_
    refine debugOpt_laid _ _ _ _ (fun a _ => ⟨_, rfl, Registers.chars_laid x a⟩) ?_
    refine debugOpt_laid _ _ _ _ (adr _) ?_
    refine debugOpt_laid _ _ _ _ (n8s _) ?_
    refine debugOpt_laid _ _ _ _ (n64 _) ?_
    refine debugOpt_laid _ _ _ _ (n64 _) ?_
    rw [← List.append_nil (optField "code_page_size" _ _)]
    refine debugOpt_laid _ _ _ _ (n64 _) ?_
    exact ⟨[], rfl, .nil⟩
  obtain ⟨fs, h1, h2⟩ := main
  exact ⟨es, _, hes, by unfold Sample.debug; rw [h1]; rfl, h2⟩

/-- **C68** `SampleId` -/
theorem c68_sample_id (s : SampleId) : ∃ t, s.debug = .ok t ∧ Rendered x t (s.chars fmt.radix) := by
  have num : ∀ {w : Nat} (_ : w ≤ 64) (v : Option (BitVec w)), ∀ a, v = some a →
      ∃ s, (.ok ∘ debugNum : BitVec w → Except Fault String) a = .ok s ∧ Rendered x s (numChars fmt.radix a.toNat) :=
    fun hw _ a _ => ⟨_, rfl, .num a hw⟩
  have main : ∃ fs, s.debugFields = .ok fs ∧ Rendered x (debugStructOpen "SampleId" fs) (s.chars fmt.radix) := by
    unfold SampleId.debugFields SampleId.chars
    simp only [List.append_assoc]
    have key : ∀ {R : Except Fault (List (String × String))} {C : List (String × Layout)}, (∃ fs, R = .ok fs ∧ RenderedFields x fs C) →
        ∃ fs, R = .ok fs ∧ Rendered x (debugStructOpen "SampleId" fs) (structChars "SampleId" true C) := by
      rintro R C ⟨fs, h1, h2⟩; exact ⟨fs, h1, .structOpen _ h2⟩
    apply key
    refine debugOpt_laid _ _ _ _ (num (by omega) _) ?_
    refine debugOpt_laid _ _ _ _ (num (by omega) _) ?_
    refine debugOpt_laid _ _ _ _ (num (by omega) _) ?_
    refine debugOpt_laid _ _ _ _ (num (by omega) _) ?_
    refine debugOpt_laid _ _ _ _ (num (by omega) _) ?_
    rw [← List.append_nil (optField "cpu" _ _)]
    refine debugOpt_laid _ _ _ _ (num (by omega) _) ?_
    exact ⟨[], rfl, .nil⟩
  obtain ⟨fs, h1, h2⟩ := main
  exact ⟨_, by unfold SampleId.debug; rw [h1]; rfl, h2⟩

/-- **C68** `RecordMetadata` -/
theorem c68_metadata (m : Metadata) : ∃ t, m.debug = .ok t ∧ Rendered x t (m.chars fmt.radix) := by
  obtain ⟨t, h1, h2⟩ := c68_sample_id m.sampleId
  exact ⟨_, by unfold Metadata.debug; rw [h1]; rfl, .struct _ (.num _ _ (by omega) (.num _ _ (by omega) (.cons h2 .nil)))⟩

/-- **C68** `ParseConfig` -/
theorem c68_config (x : Outside) (c : ParseConfig) : Rendered x (c.debug x) (c.chars fmt.radix x) := by
  have hx : ∀ {w : Nat} (n : BitVec w), w ≤ 64 → Rendered x (textOf ([0x30, 0x78] ++ (upperHexRev 16 n.toNat).reverse)) (hexChars n.toNat) := by
    intro w n hw
    refine .text' ?_ fun _ h => ?_
    · rw [textOf_toList, List.map_append, upperHexRev_digits 16 n.toNat
        (Nat.lt_of_lt_of_le n.isLt (show 2 ^ w ≤ 2 ^ 64 from Nat.pow_le_pow_right (by omega) hw)) (by omega)]
      rfl
    · simp only [List.mem_cons, List.mem_map] at h
      rcases h with h | h | ⟨c, h, hc⟩
      · cases h
      · cases h
      · exact (digit_plain 16 n.toNat (by omega) _ h).2 hc
  exact .struct _ (.cons (.flags ..) (.cons (.flags ..) (.cons (.bool _) (.cons (.bool _) (.cons (hx _ (by omega)) (.cons (hx _ (by omega))
    (.cons (hx _ (by omega)) .nil)))))))

theorem debugByteStr_laid (x : Outside) (bs : List Byte) : ∃ s t, debugByteStr x bs = .ok s ∧ nameChars x bs t ∧ Rendered x s t := by
  obtain ⟨s, hs⟩ := debugByteStr_ok x bs
  unfold debugByteStr at hs ⊢
  split at hs
  · next ps h => exact ⟨_, _, rfl, ⟨ps, h, rfl⟩, .text' (textOf_toList _) fun hx => byteStr_line hx ps⟩
  · cases hs

variable {β : Type} [ParseBuf β] [Lawful β] {p : Parser β} {f : Flat}

/-- **C68** The text of every record `parse_record` can return. -/
theorem c68_record (x : Outside) (host decl : Order) (hp : RepP p f) {r : Record Cow} (h : (P.parseRecord p).res = .ok r) :
    ∃ s t, r.debug x host decl = .ok s ∧ r.Shows fmt.radix x host decl t ∧ Rendered x s t := by
  cases r with
  | mmap m =>
    obtain ⟨s, t, hs, hn, hl⟩ := debugByteStr_laid x m.filename.data
    simp only [Record.debug, Mmap.debug, hs]
    exact ⟨_, _, rfl, ⟨t, hn, rfl⟩, .tuple _ (.struct _ (.num _ _ (by omega) (.num _ _ (by omega) (.cons (.addr _) (.num _ _ (by omega)
      (.num _ _ (by omega) (.cons hl .nil)))))))⟩
  | comm m =>
    obtain ⟨s, t, hs, hn, hl⟩ := debugByteStr_laid x m.comm.data
    simp only [Record.debug, Comm.debug, hs]
    exact ⟨_, _, rfl, ⟨t, hn, rfl⟩, .tuple _ (.struct _ (.num _ _ (by omega) (.num _ _ (by omega) (.cons hl .nil))))⟩
  | ksymbol m =>
    obtain ⟨s, t, hs, hn, hl⟩ := debugByteStr_laid x m.name.data
    simp only [Record.debug, KSymbol.debug, hs]
    exact ⟨_, _, rfl, ⟨t, hn, rfl⟩, .tuple _ (.struct _ (.cons (.addr _) (.num _ _ (by omega) (.cons (.flags ..) (.cons (.flags ..)
      (.cons hl .nil))))))⟩
  | cgroup m =>
    obtain ⟨s, t, hs, hn, hl⟩ := debugByteStr_laid x m.path.data
    simp only [Record.debug, CGroup.debug, hs]
    exact ⟨_, _, rfl, ⟨t, hn, rfl⟩, .tuple _ (.struct _ (.num _ _ (by omega) (.cons hl .nil)))⟩
  | mmap2 m =>
    obtain ⟨s, t, hs, hn, hl⟩ := debugByteStr_laid x m.filename.data
    obtain ⟨b, hb⟩ := Option.isSome_iff_exists.1 (c13_record_build_id_returns hp h)
    have : ∃ d, m.debugDetail = .ok d ∧ RenderedFields x d (m.detailChars fmt.radix b) := by
      unfold Mmap2.debugDetail Mmap2.detailChars
      rw [hb]
      cases m.detail with
      | default => exact ⟨_, rfl, .num _ _ (by omega) (.num _ _ (by omega) (.num _ _ (by omega) (.num _ _ (by omega) .nil)))⟩
      | buildId =>
        cases b with
        | none => exact ⟨_, rfl, .nil⟩
        | some id => exact ⟨_, rfl, .cons (.text' (textOf_toList _) fun _ => hexStr_line id) .nil⟩
    obtain ⟨d, hd, hc⟩ := this
    simp only [Record.debug, Mmap2.debug, hs, hd]
    exact ⟨_, _, rfl, ⟨t, b, hn, hb, rfl⟩, .tuple _ (.struct _ (by
      simp only [List.cons_append, List.nil_append]
      exact .num _ _ (by omega) (.num _ _ (by omega) (.cons (.addr _) (.num _ _ (by omega) (.num _ _ (by omega) (.append hc
        (.num _ _ (by omega) (.num _ _ (by omega) (.cons hl .nil))))))))))⟩
  | sample s =>
    obtain ⟨es, t, h1, h2, h3⟩ := c68_sample x host decl s
    simp only [Record.debug, h2]
    exact ⟨_, _, rfl, ⟨es, h1, rfl⟩, .tuple _ h3⟩
  | switch => exact ⟨_, _, rfl, rfl, .text' rfl fun _ => by decide⟩
  | switchCpuWide r =>
    refine ⟨_, _, rfl, rfl, .tuple _ ?_⟩
    cases r <;> exact .struct _ (.num _ _ (by omega) (.num _ _ (by omega) .nil))
  | unknown ty d => exact ⟨_, _, rfl, rfl, .struct _ (.num _ _ (by omega) (.cons (.nums _ (by omega)) .nil))⟩
  | namespaces r => exact ⟨_, _, rfl, rfl, .tuple _ (.struct _ (.num _ _ (by omega) (.num _ _ (by omega) (.cons (.list (.map _ fun e =>
      .struct _ (.num _ _ (by omega) (.num _ _ (by omega) .nil)))) .nil))))⟩
  | lost r => exact ⟨_, _, rfl, rfl, .tuple _ (.struct _ (.num _ _ (by omega) (.num _ _ (by omega) .nil)))⟩
  | exit r | fork r => exact ⟨_, _, rfl, rfl, .tuple _ (.struct _ (.num _ _ (by omega) (.num _ _ (by omega) (.num _ _ (by omega)
      (.num _ _ (by omega) (.num _ _ (by omega) .nil))))))⟩
  | throttle r | unthrottle r => exact ⟨_, _, rfl, rfl, .tuple _ (.struct _ (.num _ _ (by omega) (.num _ _ (by omega) (.num _ _ (by omega) .nil))))⟩
  | read r => exact ⟨_, _, rfl, rfl, .tuple _ (.struct _ (.num _ _ (by omega) (.num _ _ (by omega) (.cons (c68_read_value _) .nil))))⟩
  | aux r => exact ⟨_, _, rfl, rfl, .tuple _ (.struct _ (.num _ _ (by omega) (.num _ _ (by omega) (.cons (.flags ..) .nil))))⟩
  | itraceStart r => exact ⟨_, _, rfl, rfl, .tuple _ (.struct _ (.num _ _ (by omega) (.num _ _ (by omega) .nil)))⟩
  | lostSamples r | auxOutputHwId r => exact ⟨_, _, rfl, rfl, .tuple _ (.struct _ (.num _ _ (by omega) .nil))⟩
  | bpfEvent r => exact ⟨_, _, rfl, rfl, .tuple _ (.struct _ (.cons (.flags ..) (.num _ _ (by omega) (.num _ _ (by omega)
      (.cons (.nums _ (by omega)) .nil)))))⟩
  | textPoke r => exact ⟨_, _, rfl, rfl, .tuple _ (.struct _ (.cons (.addr _) (.cons (.nums _ (by omega)) (.cons (.nums _ (by omega)) .nil))))⟩

end

theorem nameChars_unique {x : Outside} {bs : List Byte} {t t' : Layout} (h : nameChars x bs t) (h' : nameChars x bs t') : t = t' := by
  obtain ⟨ps, h1, rfl⟩ := h
  obtain ⟨ps', h2, rfl⟩ := h'
  rw [h1] at h2
  cases h2
  rfl

/-- **C68** The text is determined by the record. -/
theorem c68_unique (rx : Radix) (x : Outside) (host decl : Order) (r : Record Cow) {t t' : Layout} (h : r.Shows rx x host decl t)
    (h' : r.Shows rx x host decl t') : t = t' := by
  cases r with
  | mmap | comm | ksymbol | cgroup =>
    obtain ⟨n, h1, rfl⟩ := h
    obtain ⟨n', h2, rfl⟩ := h'
    rw [nameChars_unique h1 h2]
  | mmap2 m =>
    obtain ⟨n, b, h1, hb, rfl⟩ := h
    obtain ⟨n', b', h2, hb', rfl⟩ := h'
    rw [hb] at hb'
    cases hb'
    rw [nameChars_unique h1 h2]
  | sample s =>
    obtain ⟨es, h1, rfl⟩ := h
    obtain ⟨es', h2, rfl⟩ := h'
    unfold Sample.chars
    cases hv : s.values with
    | none => rfl
    | some g =>
      have := (h1 g hv).symm.trans (h2 g hv)
      cases this
      rfl
  | _ => exact h.trans h'.symm

variable {β : Type} [ParseBuf β] [Lawful β] {p : Parser β} {f : Flat}

/-- **C78** `{:?}` and `{:#?}` (and `{:x?}` and `{:#x?}`, `{:X?}` and `{:#X?}`) print one and the same layout, on one line and over
several. The short form is one line: names and paths with line breaks do not break it. -/
theorem c78_record (x : Outside) (host decl : Order) (hp : RepP p f) {r : Record Cow} (h : (P.parseRecord p).res = .ok r) (rx : Radix) :
    ∃ t : Layout, r.Shows rx x host decl t ∧
      (∃ s, @Record.debug ⟨false, rx⟩ x host decl r = .ok s ∧ s.toList = t none ∧ (x.OneLine → '\n' ∉ s.toList)) ∧
      (∃ s, @Record.debug ⟨true, rx⟩ x host decl r = .ok s ∧ s.toList = t (some 0)) ∧
      ∀ d, t (some (d + 1)) = indented 1 (t (some d)) := by
  obtain ⟨s, t, h1, h2, h3⟩ := @c68_record ⟨false, rx⟩ β _ _ p f x host decl hp r h
  obtain ⟨s', t', h1', h2', h3'⟩ := @c68_record ⟨true, rx⟩ β _ _ p f x host decl hp r h
  cases c68_unique rx x host decl r h2 h2'
  have e := @Rendered.now ⟨false, rx⟩ _ _ _ h3
  exact ⟨t, h2, ⟨s, h1, e, fun hx => e ▸ @Rendered.line ⟨false, rx⟩ _ _ _ h3 hx⟩, ⟨s', h1', @Rendered.now ⟨true, rx⟩ _ _ _ h3'⟩,
    fun d => (@Rendered.deeper ⟨false, rx⟩ _ _ _ h3 d).symm⟩

/-- The value of a digit. -/
def digitValue (c : Char) : Nat :=
  if c.toNat ≤ 0x39 then c.toNat - 0x30 else if c.toNat ≤ 0x46 then c.toNat - 0x41 + 10 else c.toNat - 0x61 + 10

/-- The number written by digits, most significant first. -/
def readDigits (base : Nat) (ds : Chars) : Nat := ds.foldl (fun a c => base * a + digitValue c) 0

theorem readDigits_toDigits (base n : Nat) (hb : 1 < base) (hb' : base ≤ 16) (g : Char → Char)
    (hg : ∀ k < 16, digitValue (g (Nat.digitChar k)) = k) : readDigits base ((Nat.toDigits base n).map g) = n := by
  induction n using Nat.strongRecOn with
  | _ n ih =>
    by_cases h : n < base
    · rw [Nat.toDigits_of_lt_base h]
      show base * 0 + digitValue (g (Nat.digitChar n)) = n
      rw [hg n (by omega)]; omega
    · rw [Nat.toDigits_of_base_le hb (by omega), List.map_append, readDigits, List.foldl_append, ← readDigits,
        ih (n / base) (Nat.div_lt_self (by omega) hb)]
      show base * (n / base) + digitValue (g (Nat.digitChar (n % base))) = n
      rw [hg _ (Nat.lt_of_lt_of_le (Nat.mod_lt _ (by omega)) hb')]
      exact Nat.div_add_mod n base

/-- The base of the digits. -/
def Radix.base : Radix → Nat
  | .decimal => 10
  | _ => 16

/-- **C68** Numbers can be read back, in both forms: `0x` comes before the digits in the long form, if they are hexadecimal. -/
theorem c68_numbers (rx : Radix) (n : Nat) : readDigits rx.base (numChars rx n none) = n ∧
    (∀ d, numChars rx n (some d) = (if rx = .decimal then [] else ['0', 'x']) ++ numChars rx n none) ∧
    ∀ m d, numChars rx m d = numChars rx n d ↔ m = n := by
  have h1 : ∀ k < 16, digitValue (id (Nat.digitChar k)) = k := fun k hk =>
    (by decide +kernel : ∀ k : Fin 16, digitValue (id (Nat.digitChar k.val)) = k.val) ⟨k, hk⟩
  have h2 : ∀ k < 16, digitValue (Char.toUpper (Nat.digitChar k)) = k := fun k hk =>
    (by decide +kernel : ∀ k : Fin 16, digitValue (Char.toUpper (Nat.digitChar k.val)) = k.val) ⟨k, hk⟩
  have key : ∀ n, readDigits rx.base (numChars rx n none) = n := by
    intro n
    cases rx with
    | decimal => have := readDigits_toDigits 10 n (by omega) (by omega) id h1; rwa [List.map_id] at this
    | lower => have := readDigits_toDigits 16 n (by omega) (by omega) id h1; rwa [List.map_id] at this
    | upper => exact readDigits_toDigits 16 n (by omega) (by omega) _ h2
  have long : ∀ n d, numChars rx n (some d) = (if rx = .decimal then [] else ['0', 'x']) ++ numChars rx n none := by
    intro n d; cases rx <;> rfl
  refine ⟨key n, long n, fun m d => ⟨fun e => ?_, fun e => by rw [e]⟩⟩
  cases d with
  | none => rw [← key m, e, key n]
  | some d => rw [long, long] at e; rw [← key m, List.append_cancel_left e, key n]

/-- A COMM record of a process called `a b`, printed (no escapes needed, so `escape_debug` is the identity here): `{:?}`, `{:#?}` and
`{:#x?}`. -/
def shown (fmt : Formatter) : Option String :=
  match (P.parseRecord (Parser.new (⟨0, (KRecord.mk 0 (.comm 7 18 ⟨[97, 32, 98], 5⟩) ⟨1, 2, 3, 4, 5, 6, 7, 8⟩).enc .little demoCfg⟩ : Slice)
      demoCfg)).res with
  | .ok r => (@Record.debug fmt ⟨fun t => t.map (·.toNat), fun _ _ => "", fun _ => ""⟩ .little .little r).toOption
  | .error _ => none
example : shown ⟨false, .decimal⟩ = some "Comm(Comm { pid: 7, tid: 18, comm: \"a b\" })" := by decide +kernel
example : shown ⟨true, .decimal⟩ = some "Comm(\n    Comm {\n        pid: 7,\n        tid: 18,\n        comm: \"a b\",\n    },\n)" := by decide +kernel
example : shown ⟨true, .lower⟩ = some "Comm(\n    Comm {\n        pid: 0x7,\n        tid: 0x12,\n        comm: \"a b\",\n    },\n)" := by decide +kernel

/-- An outside in which line breaks of names are escaped, as `char::escape_debug` does. -/
def escaping : Outside := ⟨fun t => t.flatMap escapeAscii, fun ty _ => ty, fun _ => "BranchEntry"⟩
example : '\n' ∉ (escaping.escapeText [97, 10, 98]).map Char.ofNat ∧ textOf (escaping.escapeText [97, 10, 98]) = "a\\nb" := by decide +kernel

end Perf
