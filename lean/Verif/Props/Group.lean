import Verif.Props.Parts
import Verif.Proof.Inv
/-!
# Group reads: C23, C24, C25, C26
-/
namespace Perf
variable {β : Type} [ParseBuf β] [Lawful β] {p : Parser β} {f : Flat} {o : Order} {tl : List Byte}

/-! ## The iterator against a list of counters -/

theorem has_enabled (rf : U64) : contains rf ReadFormat.TOTAL_TIME_ENABLED = rf.getLsbD 0 := contains_rf rf 0 (by omega) _ rfl
theorem has_running (rf : U64) : contains rf ReadFormat.TOTAL_TIME_RUNNING = rf.getLsbD 1 := contains_rf rf 1 (by omega) _ rfl
theorem has_id (rf : U64) : contains rf ReadFormat.ID = rf.getLsbD 2 := contains_rf rf 2 (by omega) _ rfl
theorem has_group (rf : U64) : contains rf ReadFormat.GROUP = rf.getLsbD 3 := contains_rf rf 3 (by omega) _ rfl
theorem has_lost (rf : U64) : contains rf ReadFormat.LOST = rf.getLsbD 4 := contains_rf rf 4 (by omega) _ rfl

/-- The `GroupEntry` for a counter. -/
def KCounter.entry (rf : U64) (c : KCounter) : GroupEntry :=
  { readFormat := rf, value := c.value, id := if rf.getLsbD 2 then c.id else 0#64
    lost := if rf.getLsbD 4 then c.lost else 0#64 }

/-- What the accessors of an entry show: the value, and the id and lost count iff requested (bits 2 and 4). -/
theorem KCounter.entry_shows (rf : U64) (c : KCounter) :
    (c.entry rf).value = c.value ∧ (c.entry rf).getId = optv (rf.getLsbD 2) c.id ∧
    (c.entry rf).getLost = optv (rf.getLsbD 4) c.lost :=
  ⟨rfl, contains_optv rf 2 (by omega) _ rfl _, contains_optv rf 4 (by omega) _ rfl _⟩

/-- The iterator over the entries of `cs`. -/
def iterOf (rf : U64) (cs : List KCounter) : GroupIter :=
  ⟨⟨cs.flatMap (KCounter.words rf), ReadFormat.elementLen rf⟩, rf⟩

theorem elementLen_pos (rf : U64) : 1 ≤ ReadFormat.elementLen rf := by unfold ReadFormat.elementLen; omega

theorem GroupEntry.new_words (rf : U64) (c : KCounter) : GroupEntry.new rf (c.words rf) = some (c.entry rf) := by
  unfold GroupEntry.new KCounter.words KCounter.entry
  simp only [has_id, has_lost]
  cases rf.getLsbD 2 <;> cases rf.getLsbD 4 <;> rfl

theorem words_take (rf : U64) (n : Nat) (cs : List KCounter) :
    (cs.flatMap (KCounter.words rf)).take (n * ReadFormat.elementLen rf) = (cs.take n).flatMap (KCounter.words rf) := by
  induction n generalizing cs with
  | zero => simp
  | succ n ih =>
    cases cs with
    | nil => simp
    | cons c cs =>
      rw [List.flatMap_cons, List.take_succ_cons, List.flatMap_cons, ← ih, List.take_append, elementLen_eq rf c, Nat.succ_mul,
        List.take_of_length_le (by omega), Nat.add_sub_cancel]

theorem words_drop (rf : U64) (n : Nat) (cs : List KCounter) :
    (cs.flatMap (KCounter.words rf)).drop (n * ReadFormat.elementLen rf) = (cs.drop n).flatMap (KCounter.words rf) := by
  induction n generalizing cs with
  | zero => simp
  | succ n ih =>
    cases cs with
    | nil => simp
    | cons c cs =>
      rw [List.flatMap_cons, List.drop_succ_cons, ← ih, List.drop_append, elementLen_eq rf c, Nat.succ_mul,
        List.drop_eq_nil_of_le (by omega), Nat.add_sub_cancel, List.nil_append]

theorem step_some (rf : U64) (c : KCounter) (cs : List KCounter) :
    GroupIter.step rf (some (c.words rf), ⟨cs.flatMap (KCounter.words rf), ReadFormat.elementLen rf⟩) =
      (.ok (some (c.entry rf)), iterOf rf cs) := by
  unfold GroupIter.step
  simp only [GroupEntry.new_words]
  rfl

theorem iterOf_next (rf : U64) (cs : List KCounter) :
    (iterOf rf cs).next = (.ok (cs.head?.map (KCounter.entry rf)), iterOf rf cs.tail) := by
  have h0 := elementLen_pos rf
  unfold GroupIter.next ChunksExact.next iterOf
  simp only [words_length]
  cases cs with
  | nil => rw [if_pos (by simp only [List.length_nil]; omega)]; rfl
  | cons c cs =>
    have h1 := words_take rf 1 (c :: cs)
    have h2 := words_drop rf 1 (c :: cs)
    rw [Nat.one_mul] at h1 h2
    have h3 : ReadFormat.elementLen rf ≤ (c :: cs).length * ReadFormat.elementLen rf :=
      Nat.le_mul_of_pos_left _ (by simp)
    rw [if_neg (by omega), h1, h2]
    have : (List.take 1 (c :: cs)).flatMap (KCounter.words rf) = c.words rf := by simp
    rw [this]
    exact step_some rf c cs

theorem iterOf_nextBack (rf : U64) (cs : List KCounter) :
    (iterOf rf cs).nextBack = (.ok (cs.getLast?.map (KCounter.entry rf)), iterOf rf cs.dropLast) := by
  have h0 := elementLen_pos rf
  unfold GroupIter.nextBack ChunksExact.nextBack iterOf
  simp only [words_length]
  rcases List.eq_nil_or_concat cs with rfl | ⟨cs, c, rfl⟩
  · rw [if_pos (by simp only [List.length_nil]; omega)]; rfl
  · have hl : (cs.concat c).length * ReadFormat.elementLen rf - ReadFormat.elementLen rf = cs.length * ReadFormat.elementLen rf := by
      rw [List.length_concat, Nat.succ_mul, Nat.add_sub_cancel]
    have h3 : ReadFormat.elementLen rf ≤ (cs.concat c).length * ReadFormat.elementLen rf :=
      Nat.le_mul_of_pos_left _ (by simp)
    rw [if_neg (by omega), hl, words_take, words_drop]
    simp only [List.concat_eq_append, List.drop_left, List.take_left, List.dropLast_concat, List.getLast?_concat,
      List.flatMap_cons, List.flatMap_nil, List.append_nil, Option.map_some]
    exact step_some rf c cs

theorem iterOf_nth (rf : U64) (cs : List KCounter) (n : Nat)
    (hlim : (cs.flatMap (KCounter.words rf)).length < usizeLimit) :
    (iterOf rf cs).nth n = (.ok (cs[n]?.map (KCounter.entry rf)), iterOf rf (cs.drop (n + 1))) := by
  have h0 := elementLen_pos rf
  have hw := words_length rf cs
  by_cases hn : n < cs.length
  · have h1 : n * ReadFormat.elementLen rf < cs.length * ReadFormat.elementLen rf := Nat.mul_lt_mul_of_pos_right hn h0
    have : (iterOf rf cs).nth n = (iterOf rf (cs.drop n)).next := by
      unfold GroupIter.nth ChunksExact.nth GroupIter.next iterOf
      simp only
      rw [if_neg (by omega), words_drop]
    rw [this, iterOf_next, List.head?_drop, List.tail_drop]
  · have h1 : cs.length * ReadFormat.elementLen rf ≤ n * ReadFormat.elementLen rf := Nat.mul_le_mul_right _ (by omega)
    have h2 : cs[n]? = none := List.getElem?_eq_none (by omega)
    have h3 : cs.drop (n + 1) = [] := List.drop_eq_nil_of_le (by omega)
    rw [h2, h3]
    unfold GroupIter.nth ChunksExact.nth iterOf
    simp only
    rw [if_pos (by omega)]
    rfl

theorem iterOf_len (rf : U64) (cs : List KCounter) : (iterOf rf cs).len = cs.length := by
  unfold GroupIter.len ChunksExact.len iterOf
  rw [words_length, Nat.mul_div_cancel _ (elementLen_pos rf)]

theorem iterOf_nthBack (rf : U64) (cs : List KCounter) (n : Nat) :
    (iterOf rf cs).nthBack n =
      (.ok (cs.reverse[n]?.map (KCounter.entry rf)), iterOf rf (cs.take (cs.length - (n + 1)))) := by
  have hl := iterOf_len rf cs
  unfold GroupIter.len at hl
  unfold GroupIter.nthBack ChunksExact.nthBack
  simp only [hl]
  by_cases hn : n < cs.length
  · rw [if_neg (by omega)]
    have hsub : cs.length - (n + 1) = cs.length - 1 - n := by omega
    have hlt : cs.length - 1 - n < cs.length := by omega
    rw [List.getElem?_reverse hn, hsub, List.getElem?_eq_getElem hlt]
    show GroupIter.step rf (some (List.drop ((cs.length - 1 - n) * ReadFormat.elementLen rf)
        (List.take ((cs.length - 1 - n) * ReadFormat.elementLen rf + ReadFormat.elementLen rf)
          (cs.flatMap (KCounter.words rf)))), ⟨List.take ((cs.length - 1 - n) * ReadFormat.elementLen rf)
          (cs.flatMap (KCounter.words rf)), ReadFormat.elementLen rf⟩) = _
    rw [← Nat.succ_mul, words_take, words_take, words_drop, List.drop_take]
    have h1 : List.take ((cs.length - 1 - n).succ - (cs.length - 1 - n)) (List.drop (cs.length - 1 - n) cs) =
        [cs[cs.length - 1 - n]] := by
      rw [List.drop_eq_getElem_cons hlt, show (cs.length - 1 - n).succ - (cs.length - 1 - n) = 1 by omega]
      rfl
    rw [h1, List.flatMap_cons, List.flatMap_nil, List.append_nil, step_some]
    rfl
  · rw [if_pos (by omega)]
    have h2 : cs.reverse[n]? = none := List.getElem?_eq_none (by rw [List.length_reverse]; omega)
    have h3 : cs.take (cs.length - (n + 1)) = [] := by rw [show cs.length - (n + 1) = 0 by omega]; rfl
    rw [h2, h3]
    rfl

theorem iterOf_last (rf : U64) (cs : List KCounter) :
    (iterOf rf cs).last = .ok (cs.getLast?.map (KCounter.entry rf)) := by
  have h := congrArg Prod.fst (iterOf_nextBack rf cs)
  exact h

theorem iterOf_collect (rf : U64) (cs : List KCounter) (n : Nat) (hn : cs.length < n) :
    GroupIter.collect n (iterOf rf cs) = .ok (cs.map (KCounter.entry rf)) := by
  induction cs generalizing n with
  | nil =>
    obtain ⟨m, rfl⟩ : ∃ m, n = m + 1 := ⟨n - 1, by simp at hn; omega⟩
    unfold GroupIter.collect
    rw [iterOf_next]
    rfl
  | cons c cs ih =>
    obtain ⟨m, rfl⟩ : ∃ m, n = m + 1 := ⟨n - 1, by simp at hn; omega⟩
    unfold GroupIter.collect
    rw [iterOf_next]
    simp only [List.head?_cons, Option.map_some, List.tail_cons]
    rw [ih m (by simp at hn; omega)]
    rfl

/-- Any words are the words of some counters and a remainder that is too short for one. -/
theorem words_exist (rf : U64) (n : Nat) (data : List U64) (hn : n * ReadFormat.elementLen rf ≤ data.length) :
    ∃ cs : List KCounter, cs.length = n ∧ data.take (n * ReadFormat.elementLen rf) = cs.flatMap (KCounter.words rf) := by
  induction n generalizing data with
  | zero => exact ⟨[], rfl, by simp⟩
  | succ n ih =>
    rw [Nat.succ_mul] at hn
    obtain ⟨cs, h1, h2⟩ := ih (data.drop (ReadFormat.elementLen rf)) (by rw [List.length_drop]; omega)
    have hc : ∃ c : KCounter, data.take (ReadFormat.elementLen rf) = c.words rf := by
      have he := elementLen_eq rf ⟨0, 0, 0⟩
      have hlen : ReadFormat.elementLen rf ≤ data.length := by omega
      revert he hlen
      generalize ReadFormat.elementLen rf = el
      unfold KCounter.words
      rcases data with _ | ⟨a, _ | ⟨b, _ | ⟨c, l⟩⟩⟩ <;> cases rf.getLsbD 2 <;> cases rf.getLsbD 4 <;> intro he hlen <;>
        simp at he hlen <;> (try omega) <;> subst he <;> first
        | exact ⟨⟨a, 0, 0⟩, rfl⟩
        | exact ⟨⟨a, b, 0⟩, rfl⟩
        | exact ⟨⟨a, 0, b⟩, rfl⟩
        | exact ⟨⟨a, b, c⟩, rfl⟩
    obtain ⟨c, hc⟩ := hc
    refine ⟨c :: cs, by simp [h1], ?_⟩
    rw [List.flatMap_cons, ← h2, ← hc, Nat.succ_mul, Nat.add_comm, List.take_add]

theorem GroupIter.new_words (rf : U64) (cs : List KCounter) :
    GroupIter.new rf (cs.flatMap (KCounter.words rf)) = iterOf rf cs := by
  unfold GroupIter.new ChunksExact.new iterOf
  rw [words_length, Nat.mul_mod_left, Nat.sub_zero, List.take_of_length_le (by rw [words_length]; omega)]

/-- The entries of any group are those of some list of counters. -/
theorem ReadGroup.counters_exist (g : ReadGroup Cow) :
    ∃ cs : List KCounter, g.entries = iterOf g.readFormat cs ∧
      cs.length = g.data.data.length / ReadFormat.elementLen g.readFormat ∧
      (cs.flatMap (KCounter.words g.readFormat)).length ≤ g.data.data.length := by
  have hd := Nat.div_mul_le_self g.data.data.length (ReadFormat.elementLen g.readFormat)
  obtain ⟨cs, h1, h2⟩ := words_exist g.readFormat _ g.data.data hd
  refine ⟨cs, ?_, h1, by rw [← h2, List.length_take]; omega⟩
  unfold ReadGroup.entries GroupIter.new ChunksExact.new iterOf
  have : g.data.data.length - g.data.data.length % ReadFormat.elementLen g.readFormat =
      g.data.data.length / ReadFormat.elementLen g.readFormat * ReadFormat.elementLen g.readFormat := by
    have := Nat.div_add_mod' g.data.data.length (ReadFormat.elementLen g.readFormat)
    omega
  rw [this, h2]

/-! ## C24 -/

/-- One call on a double-ended iterator. -/
inductive IterCall
  | next
  | nextBack
  | nth (n : Nat)
  | nthBack (n : Nat)

/-- The call on the crate's iterator. -/
def IterCall.run (g : GroupIter) : IterCall → Except Fault (Option GroupEntry) × GroupIter
  | .next => g.next
  | .nextBack => g.nextBack
  | .nth n => g.nth n
  | .nthBack n => g.nthBack n

/-- The call on a list of what is left: the item and what is left then. -/
def IterCall.onList {α : Type} (l : List α) : IterCall → Option α × List α
  | .next => (l.head?, l.tail)
  | .nextBack => (l.getLast?, l.dropLast)
  | .nth n => (l[n]?, l.drop (n + 1))
  | .nthBack n => (l.reverse[n]?, l.take (l.length - (n + 1)))

/-- The items of a history of calls on the crate's iterator, and the iterator then. -/
def runCalls : GroupIter → List IterCall → List (Except Fault (Option GroupEntry)) × GroupIter
  | g, [] => ([], g)
  | g, c :: cs => ((c.run g).1 :: (runCalls (c.run g).2 cs).1, (runCalls (c.run g).2 cs).2)

/-- The same on a list. -/
def listCalls {α : Type} : List α → List IterCall → List (Option α) × List α
  | l, [] => ([], l)
  | l, c :: cs => ((c.onList l).1 :: (listCalls (c.onList l).2 cs).1, (listCalls (c.onList l).2 cs).2)

theorem IterCall.run_iterOf (rf : U64) (l : List KCounter) (hlim : (l.flatMap (KCounter.words rf)).length < usizeLimit)
    (c : IterCall) :
    c.run (iterOf rf l) = (.ok ((c.onList l).1.map (KCounter.entry rf)), iterOf rf (c.onList l).2) := by
  cases c with
  | next => exact iterOf_next rf l
  | nextBack => exact iterOf_nextBack rf l
  | nth n => exact iterOf_nth rf l n hlim
  | nthBack n => exact iterOf_nthBack rf l n

theorem IterCall.onList_length {α : Type} (l : List α) (c : IterCall) : (c.onList l).2.length ≤ l.length := by
  cases c <;> simp [IterCall.onList] <;> omega

theorem runCalls_iterOf (rf : U64) (calls : List IterCall) (l : List KCounter)
    (hlim : (l.flatMap (KCounter.words rf)).length < usizeLimit) :
    runCalls (iterOf rf l) calls =
      ((listCalls l calls).1.map fun x => .ok (x.map (KCounter.entry rf)), iterOf rf (listCalls l calls).2) := by
  induction calls generalizing l with
  | nil => rfl
  | cons c calls ih =>
    have hl : ((c.onList l).2.flatMap (KCounter.words rf)).length < usizeLimit := by
      have := Nat.mul_le_mul_right (ReadFormat.elementLen rf) (c.onList_length l)
      rw [words_length] at hlim ⊢
      omega
    have h1 := c.run_iterOf rf l hlim
    unfold runCalls listCalls
    rw [h1, ih _ hl]
    rfl

theorem listCalls_map {α γ : Type} (h : α → γ) (calls : List IterCall) (l : List α) :
    listCalls (l.map h) calls = ((listCalls l calls).1.map (Option.map h), (listCalls l calls).2.map h) := by
  induction calls generalizing l with
  | nil => rfl
  | cons c calls ih =>
    have : c.onList (l.map h) = ((c.onList l).1.map h, (c.onList l).2.map h) := by
      cases c <;> simp [IterCall.onList, List.map_tail, List.map_dropLast, List.map_drop, List.map_take, ← List.map_reverse]
    unfold listCalls
    rw [this, ih]
    rfl

/-- **C24** For every group there is a list of entries (the one `collect` gives) such that every history of calls on
`entries()` gives what the same history gives on that list, without panicking; and then `len` (`count`, `size_hint`),
`last` and the remaining items are those of what is left of the list. `hlim`: the data fits in memory. -/
theorem c24_iterator (g : ReadGroup Cow) (hlim : g.data.data.length < usizeLimit) :
    ∃ es : List GroupEntry, es.length = g.len ∧ g.entries.collect (g.len + 1) = .ok es ∧ ∀ calls : List IterCall,
      (runCalls g.entries calls).1 = (listCalls es calls).1.map .ok ∧
      (runCalls g.entries calls).2.len = (listCalls es calls).2.length ∧
      (runCalls g.entries calls).2.last = .ok (listCalls es calls).2.getLast? ∧
      ∀ n, (listCalls es calls).2.length < n →
        (runCalls g.entries calls).2.collect n = .ok (listCalls es calls).2 := by
  obtain ⟨cs, h1, h2, h3⟩ := g.counters_exist
  have hlen : g.len = cs.length := by unfold ReadGroup.len; rw [h1, iterOf_len]
  refine ⟨cs.map (KCounter.entry g.readFormat), by simp [hlen], ?_, fun calls => ?_⟩
  · rw [h1, iterOf_collect _ _ _ (by omega)]
  · rw [h1, runCalls_iterOf _ calls cs (by omega), listCalls_map]
    refine ⟨by simp [List.map_map], by simp [iterOf_len], by simp [iterOf_last], fun n hn => ?_⟩
    exact iterOf_collect _ _ _ (by simpa using hn)

/-- The items taken from the front in a history, in order. -/
def fronts {α : Type} : List IterCall → List (Option α) → List α
  | c :: cs, x :: xs => (match c with | .next | .nth _ => x.toList | _ => []) ++ fronts cs xs
  | _, _ => []

/-- The items taken from the back in a history, in order. -/
def backs {α : Type} : List IterCall → List (Option α) → List α
  | c :: cs, x :: xs => (match c with | .nextBack | .nthBack _ => x.toList | _ => []) ++ backs cs xs
  | _, _ => []

theorem getElem?_drop_sublist {α : Type} (l : List α) (n : Nat) : (l[n]?.toList ++ l.drop (n + 1)).Sublist l := by
  by_cases h : n < l.length
  · rw [List.getElem?_eq_getElem h]
    have : (some l[n]).toList ++ l.drop (n + 1) = l.drop n := (List.drop_eq_getElem_cons h).symm
    rw [this]
    exact List.drop_sublist _ _
  · rw [List.getElem?_eq_none (by omega), List.drop_eq_nil_of_le (by omega)]
    simp

/-- **C24** Each entry is given out at most once, from the two ends inward: the items taken from the front, then what is
left, then the items taken from the back in reverse, is the list of entries with some (skipped) entries missing. -/
theorem c24_at_most_once (es : List GroupEntry) (calls : List IterCall) :
    (fronts calls (listCalls es calls).1 ++ (listCalls es calls).2 ++ (backs calls (listCalls es calls).1).reverse).Sublist es := by
  induction calls generalizing es with
  | nil => simp [fronts, backs, listCalls]
  | cons c calls ih =>
    have h := ih (c.onList es).2
    have hmid : ∀ {a m z : List GroupEntry}, m.Sublist (c.onList es).2 → (a ++ (c.onList es).2 ++ z).Sublist es →
        (a ++ m ++ z).Sublist es := fun h1 h2 =>
      (((List.Sublist.refl _).append h1).append (List.Sublist.refl _)).trans h2
    unfold listCalls
    cases c with
    | next =>
      have := hmid (a := es.head?.toList) (z := []) h (by cases es <;> simp [IterCall.onList])
      simpa [fronts, backs, IterCall.onList, List.append_assoc] using this
    | nth n =>
      have := hmid (a := es[n]?.toList) (z := []) h (by simpa [IterCall.onList] using getElem?_drop_sublist es n)
      simpa [fronts, backs, IterCall.onList, List.append_assoc] using this
    | nextBack =>
      have := hmid (a := []) (z := es.getLast?.toList) h (by
        rcases List.eq_nil_or_concat es with rfl | ⟨l, x, rfl⟩ <;> simp [IterCall.onList])
      have e : (es.getLast?.toList).reverse = es.getLast?.toList := by cases es.getLast? <;> rfl
      simpa [fronts, backs, IterCall.onList, List.append_assoc, e] using this
    | nthBack n =>
      have := hmid (a := []) (z := es.reverse[n]?.toList) h (by
        have := (getElem?_drop_sublist es.reverse n).reverse
        have e : (es.reverse[n]?.toList).reverse = es.reverse[n]?.toList := by cases es.reverse[n]? <;> rfl
        rw [List.reverse_append, e, List.drop_reverse, List.reverse_reverse, List.reverse_reverse] at this
        simpa [IterCall.onList] using this)
      have e : (es.reverse[n]?.toList).reverse = es.reverse[n]?.toList := by cases es.reverse[n]? <;> rfl
      simpa [fronts, backs, IterCall.onList, List.append_assoc, e] using this

/-- Five counters with ids: `next`, `nth_back 1`, `next_back`, `next`, `next`. -/
def demoGroup : KGroup := ⟨10, 20, [⟨1, 11, 0⟩, ⟨2, 12, 0⟩, ⟨3, 13, 0⟩, ⟨4, 14, 0⟩, ⟨5, 13, 0⟩]⟩
def demoGroupValue : ReadGroup Cow := ⟨0xc#64, 0, 0, .owned (demoGroup.counters.flatMap (KCounter.words 0xc#64))⟩
example : ((runCalls demoGroupValue.entries [.next, .nthBack 1, .nextBack, .next, .next]).1.map fun x => match x with
    | .ok e => e.map GroupEntry.value
    | _ => none) = [some 1, some 4, some 3, some 2, none] := by decide +kernel

/-! ## C23 -/

theorem iterOf_findId (rf : U64) (hid : rf.getLsbD 2 = true) (id : U64) (cs : List KCounter) (n : Nat) (hn : cs.length < n) :
    (iterOf rf cs).findId id n = .ok ((cs.find? (fun c => c.id == id)).map (KCounter.entry rf)) := by
  induction cs generalizing n with
  | nil =>
    obtain ⟨m, rfl⟩ : ∃ m, n = m + 1 := ⟨n - 1, by simp at hn; omega⟩
    unfold GroupIter.findId
    rw [iterOf_next]
    rfl
  | cons c cs ih =>
    obtain ⟨m, rfl⟩ : ∃ m, n = m + 1 := ⟨n - 1, by simp at hn; omega⟩
    unfold GroupIter.findId
    rw [iterOf_next]
    simp only [List.head?_cons, Option.map_some, List.tail_cons]
    have he : (c.entry rf).getId = some c.id := by rw [(c.entry_shows rf).2.1, hid]; rfl
    rw [he, List.find?_cons]
    by_cases h : c.id = id
    · rw [if_pos (by rw [h]), show (c.id == id) = true by simp [h]]
      rfl
    · rw [if_neg (by simpa using h), show (c.id == id) = false by simp [h], ih m (by simp at hn; omega)]

/-- What a group shows through its methods. -/
structure GroupShows (rf : U64) (cs : List KCounter) (te tr : U64) (g : ReadGroup Cow) : Prop where
  len : g.len = cs.length
  isEmpty : g.isEmpty = cs.isEmpty
  entries : g.entries.collect (g.len + 1) = .ok (cs.map (KCounter.entry rf))
  get : ∀ i, g.get i = .ok (cs[i]?.map (KCounter.entry rf))
  getById : ∀ id, rf.getLsbD 2 = true → g.getById id = .ok ((cs.find? (fun c => c.id == id)).map (KCounter.entry rf))
  getByIdNone : ∀ id, rf.getLsbD 2 = false → g.getById id = .ok none
  timeEnabled : g.getTimeEnabled = optv (rf.getLsbD 0) te
  timeRunning : g.getTimeRunning = optv (rf.getLsbD 1) tr

theorem KGroup.shows (k : KGroup) (rf : U64) (g : ReadGroup Cow) (hg : g.view = k.readGroup rf)
    (hlim : (k.counters.flatMap (KCounter.words rf)).length < usizeLimit) :
    GroupShows rf k.counters k.timeEnabled k.timeRunning g := by
  simp only [ReadGroup.view, KGroup.readGroup, ReadGroup.mk.injEq] at hg
  obtain ⟨h1, h2, h3, h4⟩ := hg
  have he : g.entries = iterOf rf k.counters := by
    unfold ReadGroup.entries
    rw [h1, h4, GroupIter.new_words]
  have hl : g.len = k.counters.length := by unfold ReadGroup.len; rw [he, iterOf_len]
  refine ⟨hl, ?_, ?_, ?_, ?_, ?_, ?_, ?_⟩
  · unfold ReadGroup.isEmpty; rw [hl]; cases k.counters <;> rfl
  · rw [he, iterOf_collect _ _ _ (by omega)]
  · intro i; unfold ReadGroup.get; rw [he, iterOf_nth _ _ _ hlim]
  · intro id hid
    unfold ReadGroup.getById
    rw [h1, has_id, hid, he, h4]
    have : k.counters.length < (k.counters.flatMap (KCounter.words rf)).length + 1 := by
      have h := Nat.mul_le_mul_left k.counters.length (elementLen_pos rf)
      rw [words_length]; omega
    exact iterOf_findId rf hid id _ _ this
  · intro id hid
    unfold ReadGroup.getById
    rw [h1, has_id, hid]
    rfl
  · unfold ReadGroup.getTimeEnabled; rw [h1, h2]; exact contains_optv rf 0 (by omega) _ rfl _
  · unfold ReadGroup.getTimeRunning; rw [h1, h3]; exact contains_optv rf 1 (by omega) _ rfl _

/-- **C23** Full statement: without `hend` and `hal`. `hend`: a group without counters in the host's byte order is not the
last thing in the buffer (C48); `hal`: in the host's byte order the data does not start at a misaligned address (C33).
Both are needed: `c23_empty_false`, `c23_misaligned_false`. -/
theorem c23_group_partial (hp : RepP p f) (hs : Src f.cfg o) (g : KGroup)
    (h3 : f.cfg.readFormat.getLsbD 3 = true) (h5 : f.cfg.readFormat.getLsbD 5 = false)
    (hlen : (g.enc o f.cfg.readFormat).length < usizeLimit)
    (hend : f.cfg.endian.isNative = true → g.counters = [] → tl ≠ [])
    (hal : f.cfg.endian.isNative = true → AlMod f.s.al 0)
    (hb : f.s.bytes = g.enc o f.cfg.readFormat ++ tl) :
    ∃ a : ReadGroup Cow, ((parseReadGroup : P β (ReadGroup Cow)) p).res = .ok a ∧
      GroupShows f.cfg.readFormat g.counters g.timeEnabled g.timeRunning a ∧
      RepP ((parseReadGroup : P β (ReadGroup Cow)) p).st (f.adv (g.enc o f.cfg.readFormat).length) := by
  obtain ⟨a, h1, h2, h4⟩ := Refines.reads Refines.readGroup hp
    (Reads.readGroup (nd := ⟨true, false⟩) hs g h3 h5 hlen hend) nofun (fun _ => hal) hb
  refine ⟨a, h1, g.shows _ a h2 ?_, h4⟩
  unfold KGroup.enc at hlen
  rw [List.length_append, flatMap_e64_length] at hlen
  omega

/-- Values inside a sample: with GROUP, the group; without, a group of one. -/
theorem c23_sample_values_partial (hp : RepP p f) (hs : Src f.cfg o) (misc : U16) (t : KTrailer) (s : KSample)
    (hok : s.Ok f.cfg.endian.isNative o f.cfg.sampleType f.cfg.readFormat f.cfg.regsUser f.cfg.regsIntr f.cfg.branchHwIndex)
    (hal : f.cfg.endian.isNative = true → AlMod f.s.al 0)
    (hsize : (KRecord.mk misc (.sample s) t).size o f.cfg < 65536)
    (h4 : f.cfg.sampleType.getLsbD 4 = true)
    (hlim : (s.group.counters.flatMap (KCounter.words f.cfg.readFormat)).length < usizeLimit)
    (hb : f.s.bytes = (KRecord.mk misc (.sample s) t).enc o f.cfg ++ tl) :
    ∃ (a : Sample Cow) (g : ReadGroup Cow), (P.parseRecord p).res = .ok (.sample a) ∧ a.values = some g ∧
      (f.cfg.readFormat.getLsbD 3 = true →
        GroupShows f.cfg.readFormat s.group.counters s.group.timeEnabled s.group.timeRunning g) := by
  obtain ⟨⟨a, h1, h2⟩, _⟩ := c17_sample_partial hp hs misc t s hok hal hsize hb
  simp only [Sample.view, KSample.value, Sample.mk.injEq, h4] at h2
  have hv := h2.2.2.2.2.2.2.2.2.2.1
  rcases ha : a.values with _ | g
  · rw [ha] at hv; cases hv
  · rw [ha] at hv
    refine ⟨a, g, h1, ha, fun h3 => s.group.shows _ g ?_ hlim⟩
    simp only [optv, if_true, Option.map_some, Option.some.injEq] at hv
    rw [hv]
    unfold KSample.readGroup
    rw [if_pos h3]

def demoGroupCfg : ParseConfig := { demoCfg with config := ⟨ConfigFlags.new 0xc#64 0#64 false false 0#16, 0#64, 0#64⟩ }
example : demoGroupCfg.readFormat.getLsbD 3 = true ∧ demoGroupCfg.readFormat.getLsbD 5 = false ∧
    (match ((parseReadGroup : P Slice (ReadGroup Cow)) (Parser.new ⟨8, demoGroup.enc .little demoGroupCfg.readFormat⟩ demoGroupCfg)).res with
    | .ok g => g.len == 5 && (match g.getById 13 with | .ok (some e) => e.value == 3 | _ => false) &&
        (match g.get 4 with | .ok (some e) => e.value == 5 | _ => false) && (match g.get 5 with | .ok none => true | _ => false)
    | _ => false) = true := by decide +kernel

/-- The same group at an odd address: not the group (the words are consumed and then parsing goes on after them). -/
theorem c23_misaligned_false :
    (match ((parseReadGroup : P Slice (ReadGroup Cow)) (Parser.new ⟨1, demoGroup.enc .little demoGroupCfg.readFormat⟩ demoGroupCfg)).res with
    | .ok _ => false
    | .error _ => true) = true := by decide +kernel

/-- A group of no counters at the end of the data is refused. -/
theorem c23_empty_false :
    (match ((parseReadGroup : P Slice (ReadGroup Cow)) (Parser.new ⟨0, (KGroup.mk 0 0 []).enc .little demoGroupCfg.readFormat⟩
      demoGroupCfg)).res with
    | .error (.err e) => e == .eof
    | _ => false) = true := by decide +kernel

/-! ## C25 -/

theorem getLsbD_orGroup (rf : U64) (i : Nat) (hi : i ≠ 3) : (rf ||| ReadFormat.GROUP).getLsbD i = rf.getLsbD i := by
  rw [BitVec.getLsbD_or, show (ReadFormat.GROUP : U64) = BitVec.twoPow 64 3 from rfl, BitVec.getLsbD_twoPow]
  simp; omega

theorem getLsbD_diffGroup (rf : U64) (i : Nat) (hi : i ≠ 3) : (ReadFormat.diff rf ReadFormat.GROUP).getLsbD i = rf.getLsbD i := by
  unfold ReadFormat.diff
  rw [BitVec.getLsbD_and, BitVec.getLsbD_not, show (ReadFormat.GROUP : U64) = BitVec.twoPow 64 3 from rfl, BitVec.getLsbD_twoPow]
  by_cases h : i < 64
  · simp [h]; omega
  · rw [BitVec.getLsbD_of_ge _ _ (by omega)]; rfl

theorem diff_orGroup (rf : U64) (h : contains rf ReadFormat.GROUP = false) :
    ReadFormat.diff (rf ||| ReadFormat.GROUP) ReadFormat.GROUP = rf := by
  apply BitVec.eq_of_getLsbD_eq
  intro i hi
  by_cases h3 : i = 3
  · subst h3
    rw [has_group] at h
    rw [h]
    unfold ReadFormat.diff
    rw [BitVec.getLsbD_and, BitVec.getLsbD_not, show (ReadFormat.GROUP : U64) = BitVec.twoPow 64 3 from rfl, BitVec.getLsbD_twoPow]
    simp
  · rw [getLsbD_diffGroup _ _ h3, getLsbD_orGroup _ _ h3]

theorem ReadGroup.ofValue_words (v : ReadValue) :
    (ReadGroup.ofValue (P Slice) v : ReadGroup Cow).entries = iterOf (v.readFormat ||| ReadFormat.GROUP) [⟨v.value, v.id, v.lost⟩] := by
  unfold ReadGroup.entries ReadGroup.ofValue
  have hw : ([v.value] ++ v.getId.toList ++ v.getLost.toList : List U64) =
      [(⟨v.value, v.id, v.lost⟩ : KCounter)].flatMap (KCounter.words (v.readFormat ||| ReadFormat.GROUP)) := by
    simp only [List.flatMap_cons, List.flatMap_nil, List.append_nil]
    unfold KCounter.words ReadValue.getId ReadValue.getLost
    rw [getLsbD_orGroup _ 2 (by omega), getLsbD_orGroup _ 4 (by omega), has_id,
      has_lost]
    cases v.readFormat.getLsbD 2 <;> cases v.readFormat.getLsbD 4 <;> rfl
  rw [← GroupIter.new_words, ← hw]
  rfl

/-- **C25** `ReadGroup::from(v)`: one entry, with the value's id and lost count; the same times. -/
theorem c25_to_group (v : ReadValue) :
    let g : ReadGroup Cow := ReadGroup.ofValue (P Slice) v
    g.len = 1 ∧ (∃ e, g.entries.collect 2 = .ok [e] ∧ g.get 0 = .ok (some e) ∧ e.value = v.value ∧ e.getId = v.getId ∧
      e.getLost = v.getLost) ∧ g.getTimeEnabled = v.getTimeEnabled ∧ g.getTimeRunning = v.getTimeRunning := by
  intro g
  have he : g.entries = _ := ReadGroup.ofValue_words v
  refine ⟨?_, ⟨KCounter.entry (v.readFormat ||| ReadFormat.GROUP) ⟨v.value, v.id, v.lost⟩, ?_, ?_, ?_⟩, ?_, ?_⟩
  · unfold ReadGroup.len; rw [he, iterOf_len]; rfl
  · rw [he, iterOf_collect _ _ _ (by simp)]; rfl
  · unfold ReadGroup.get
    rw [he, iterOf_nth]
    · rfl
    · rw [words_length]
      have := elementLen_eq (v.readFormat ||| ReadFormat.GROUP) ⟨0, 0, 0⟩
      rw [this]
      unfold KCounter.words usizeLimit
      cases (v.readFormat ||| ReadFormat.GROUP).getLsbD 2 <;> cases (v.readFormat ||| ReadFormat.GROUP).getLsbD 4 <;> simp
  · obtain ⟨h1, h2, h3⟩ := KCounter.entry_shows (v.readFormat ||| ReadFormat.GROUP) ⟨v.value, v.id, v.lost⟩
    refine ⟨h1, h2.trans ?_, h3.trans ?_⟩
    · rw [getLsbD_orGroup _ 2 (by omega)]
      unfold ReadValue.getId
      rw [has_id]; rfl
    · rw [getLsbD_orGroup _ 4 (by omega)]
      unfold ReadValue.getLost
      rw [has_lost]; rfl
  · show thenSome (contains (v.readFormat ||| ReadFormat.GROUP) _) _ = thenSome (contains v.readFormat _) _
    rw [has_enabled, has_enabled, getLsbD_orGroup _ _ (by omega)]
    rfl
  · show thenSome (contains (v.readFormat ||| ReadFormat.GROUP) _) _ = thenSome (contains v.readFormat _) _
    rw [has_running, has_running, getLsbD_orGroup _ _ (by omega)]
    rfl

/-- The value of a group of one. -/
def oneValue (g : ReadGroup Cow) : List KCounter → Option ReadValue
  | [c] => some { readFormat := ReadFormat.diff g.readFormat ReadFormat.GROUP, value := c.value
                  timeEnabled := g.timeEnabled, timeRunning := g.timeRunning
                  id := (c.entry g.readFormat).id, lost := (c.entry g.readFormat).lost }
  | _ => none

/-- `tryFromGroup` on a list of counters. -/
theorem tryFromGroup_iterOf (g : ReadGroup Cow) (cs : List KCounter) (h : g.entries = iterOf g.readFormat cs) :
    ReadValue.tryFromGroup g = .ok (oneValue g cs) := by
  unfold ReadValue.tryFromGroup
  rw [h, iterOf_next]
  cases cs with
  | nil => rfl
  | cons c cs =>
    simp only [List.head?_cons, Option.map_some, List.tail_cons]
    rw [iterOf_next]
    cases cs <;> rfl

/-- **C25** Converting back and forth shows the same through every accessor, and the same `read_format`. A `ReadValue`
never has GROUP set (`c26_value_group`). -/
theorem c25_back (v : ReadValue) (hg : contains v.readFormat ReadFormat.GROUP = false) :
    ∃ w, ReadValue.tryFromGroup (ReadGroup.ofValue (P Slice) v) = .ok (some w) ∧ w.readFormat = v.readFormat ∧
      w.value = v.value ∧ w.getTimeEnabled = v.getTimeEnabled ∧ w.getTimeRunning = v.getTimeRunning ∧
      w.getId = v.getId ∧ w.getLost = v.getLost := by
  have he : (ReadGroup.ofValue (P Slice) v : ReadGroup Cow).entries = _ := ReadGroup.ofValue_words v
  refine ⟨_, tryFromGroup_iterOf _ _ he, diff_orGroup _ hg, rfl, ?_, ?_, ?_, ?_⟩
  · unfold ReadValue.getTimeEnabled
    simp only [ReadGroup.ofValue, diff_orGroup _ hg]
  · unfold ReadValue.getTimeRunning
    simp only [ReadGroup.ofValue, diff_orGroup _ hg]
  · unfold ReadValue.getId
    simp only [ReadGroup.ofValue, diff_orGroup _ hg, KCounter.entry, getLsbD_orGroup _ 2 (show (2 : Nat) ≠ 3 by omega),
      has_id]
    cases v.readFormat.getLsbD 2 <;> rfl
  · unfold ReadValue.getLost
    simp only [ReadGroup.ofValue, diff_orGroup _ hg, KCounter.entry, getLsbD_orGroup _ 4 (show (4 : Nat) ≠ 3 by omega),
      has_lost]
    cases v.readFormat.getLsbD 4 <;> rfl

/-- **C25** `TryFrom` succeeds exactly for groups of one entry (it never panics), and then shows that entry and the
group's times. -/
theorem c25_try_from (g : ReadGroup Cow) :
    ∃ r, ReadValue.tryFromGroup g = .ok r ∧ (r.isSome = true ↔ g.len = 1) ∧
      ∀ v, r = some v → contains v.readFormat ReadFormat.GROUP = false ∧ v.getTimeEnabled = g.getTimeEnabled ∧
        v.getTimeRunning = g.getTimeRunning ∧
        ∃ e, g.entries.collect 2 = .ok [e] ∧ v.value = e.value ∧ v.getId = e.getId ∧ v.getLost = e.getLost := by
  obtain ⟨cs, h1, _, _⟩ := g.counters_exist
  have hl : g.len = cs.length := by unfold ReadGroup.len; rw [h1, iterOf_len]
  refine ⟨_, tryFromGroup_iterOf g cs h1, ?_, fun v hv => ?_⟩
  · rw [hl]
    rcases cs with _ | ⟨c, _ | ⟨d, cs⟩⟩ <;> simp [oneValue]
  · rcases cs with _ | ⟨c, _ | ⟨d, cs⟩⟩
    · cases hv
    · simp only [oneValue, Option.some.injEq] at hv
      subst hv
      refine ⟨?_, ?_, ?_, c.entry g.readFormat, ?_, rfl, ?_, ?_⟩
      · show contains (ReadFormat.diff g.readFormat ReadFormat.GROUP) ReadFormat.GROUP = false
        rw [has_group]
        unfold ReadFormat.diff
        rw [BitVec.getLsbD_and, BitVec.getLsbD_not, show (ReadFormat.GROUP : U64) = BitVec.twoPow 64 3 from rfl,
          BitVec.getLsbD_twoPow]
        simp
      · show thenSome (contains (ReadFormat.diff _ _) _) _ = thenSome (contains _ _) _
        rw [has_enabled, has_enabled, getLsbD_diffGroup _ _ (by omega)]
      · show thenSome (contains (ReadFormat.diff _ _) _) _ = thenSome (contains _ _) _
        rw [has_running, has_running, getLsbD_diffGroup _ _ (by omega)]
      · rw [h1, iterOf_collect _ _ _ (by simp)]; rfl
      · show thenSome (contains (ReadFormat.diff _ _) _) _ = thenSome (contains _ _) _
        rw [has_id, has_id, getLsbD_diffGroup _ _ (by omega)]
        rfl
      · show thenSome (contains (ReadFormat.diff _ _) _) _ = thenSome (contains _ _) _
        rw [has_lost, has_lost, getLsbD_diffGroup _ _ (by omega)]
        rfl
    · cases hv

/-- A value with an id and times, there and back; and a group of five, refused. -/
example : (match ReadValue.tryFromGroup (ReadGroup.ofValue (P Slice) ⟨0x5#64, 7, 8, 9, 10, 11⟩) with
    | .ok (some v) => v.value == 7 && v.getTimeEnabled == some 8 && v.getTimeRunning == none && v.getId == some 10 && v.getLost == none
    | _ => false) = true ∧ (match ReadValue.tryFromGroup demoGroupValue with | .ok none => true | _ => false) = true := by
  decide +kernel

/-! ## C26 -/

/-- Every `read_format` bit the crate does not know (5 and up) shows up as bit 5 of the configuration's `read_format`. -/
theorem readFormat_ofAttr (e : Endian) (host : Order) (a : Attr) (i : Nat) (h5 : 5 ≤ i) (hi : a.readFormat.getLsbD i = true) :
    (ParseConfig.ofAttr e host a).readFormat.getLsbD 5 = true := by
  show (ConfigFlags.readFormat (ConfigFlags.new _ _ _ _ _)).getLsbD 5 = true
  rw [ConfigFlags.bit_readFormat, ConfigFlags.bit_new]
  simp only [show (5 : Nat) < 6 by omega, if_true, decide_true, Bool.and_true, Bool.true_and]
  by_cases h : i = 5
  · subst h; rw [hi]; rfl
  · have : a.readFormat >>> 6 ≠ 0#64 := by
      intro h0
      have h1 := congrArg (fun x => x.getLsbD (i - 6)) h0
      simp only [BitVec.getLsbD_ushiftRight, show 6 + (i - 6) = i by omega, hi, BitVec.getLsbD_zero] at h1
      cases h1
    rw [decide_eq_true this, Bool.or_true]

theorem group_ofAttr (e : Endian) (host : Order) (a : Attr) :
    (ParseConfig.ofAttr e host a).readFormat.getLsbD 3 = a.readFormat.getLsbD 3 := by
  show (ConfigFlags.readFormat (ConfigFlags.new _ _ _ _ _)).getLsbD 3 = _
  rw [ConfigFlags.bit_readFormat, ConfigFlags.bit_new]
  simp

theorem diff_ne_zero (rf : U64) (h : rf.getLsbD 5 = true) : ReadFormat.diff rf ReadFormat.all ≠ 0#64 := by
  intro h0
  have h1 := congrArg (fun x => x.getLsbD 5) h0
  unfold ReadFormat.diff at h1
  simp only [BitVec.getLsbD_and, BitVec.getLsbD_not, h, BitVec.getLsbD_zero] at h1
  revert h1; decide

/-- A result that is an error of kind `k`. -/
def FailsWith {α : Type} (r : Except Fault α) (k : ErrorKind) : Prop := ∃ e, r = .error (.err e) ∧ e.kind = k

section
omit [Lawful β]

/-- `ReadValue` on any buffer: refused if the (packed) read format has GROUP or the marker bit. Nothing is read. -/
theorem readValue_refused (p : Parser β) (cfg : ParseConfig) (hc : p.config = cfg) (h : cfg.readFormat.getLsbD 3 = true ∨ cfg.readFormat.getLsbD 5 = true) :
    FailsWith ((parseReadValue : P β ReadValue) p).res .unsupportedConfig ∧ ((parseReadValue : P β ReadValue) p).st = p := by
  subst hc
  unfold parseReadValue
  rw [P.bind_nil (show (ParserM.config : P β ParseConfig) p = ⟨.ok p.config, p, []⟩ from rfl)]
  rw [has_group]
  by_cases h3 : p.config.readFormat.getLsbD 3 = true
  · rw [P.ite_pos h3]; exact ⟨⟨_, rfl, rfl⟩, rfl⟩
  · rw [P.ite_neg h3, P.ite_pos (diff_ne_zero _ (h.resolve_left h3))]; exact ⟨⟨_, rfl, rfl⟩, rfl⟩

/-- `ReadGroup` on any buffer: refused if the (packed) read format lacks GROUP or has the marker bit. -/
theorem readGroup_refused (p : Parser β) (cfg : ParseConfig) (hc : p.config = cfg) (h : cfg.readFormat.getLsbD 3 = false ∨ cfg.readFormat.getLsbD 5 = true) :
    FailsWith ((parseReadGroup : P β (ReadGroup Cow)) p).res .unsupportedConfig ∧
    ((parseReadGroup : P β (ReadGroup Cow)) p).st = p := by
  subst hc
  unfold parseReadGroup
  rw [P.bind_nil (show (ParserM.config : P β ParseConfig) p = ⟨.ok p.config, p, []⟩ from rfl)]
  rw [has_group]
  by_cases h3 : p.config.readFormat.getLsbD 3 = false
  · rw [P.ite_pos (by rw [h3]; rfl)]; exact ⟨⟨_, rfl, rfl⟩, rfl⟩
  · rw [P.ite_neg (by simpa using h3), P.ite_pos (diff_ne_zero _ (h.resolve_left h3))]; exact ⟨⟨_, rfl, rfl⟩, rfl⟩

/-- **C26** Any bit from 5 up in `attr.read_format`: both are refused, on any buffer, before anything is read. -/
theorem c26_unknown_bits (e : Endian) (host : Order) (a : Attr) (i : Nat) (h5 : 5 ≤ i)
    (hi : a.readFormat.getLsbD i = true) (data : β) :
    FailsWith ((parseReadValue : P β ReadValue) (Parser.new data (.ofAttr e host a))).res .unsupportedConfig ∧
    FailsWith ((parseReadGroup : P β (ReadGroup Cow)) (Parser.new data (.ofAttr e host a))).res .unsupportedConfig := by
  have h := readFormat_ofAttr e host a i h5 hi
  generalize ParseConfig.ofAttr e host a = cfg at h ⊢
  exact ⟨(readValue_refused (Parser.new data cfg) cfg rfl (.inr h)).1, (readGroup_refused (Parser.new data cfg) cfg rfl (.inr h)).1⟩

/-- **C26** A `ReadValue` is refused when GROUP is set, a `ReadGroup` when it is not. -/
theorem c26_group (e : Endian) (host : Order) (a : Attr) (data : β) :
    (a.readFormat.getLsbD 3 = true →
      FailsWith ((parseReadValue : P β ReadValue) (Parser.new data (.ofAttr e host a))).res .unsupportedConfig) ∧
    (a.readFormat.getLsbD 3 = false →
      FailsWith ((parseReadGroup : P β (ReadGroup Cow)) (Parser.new data (.ofAttr e host a))).res .unsupportedConfig) := by
  have h := group_ofAttr e host a
  generalize ParseConfig.ofAttr e host a = cfg at h ⊢
  exact ⟨fun h' => (readValue_refused (Parser.new data cfg) cfg rfl (.inl (h.trans h'))).1,
    fun h' => (readGroup_refused (Parser.new data cfg) cfg rfl (.inl (h.trans h'))).1⟩

/-- A `ReadValue` that was parsed does not have GROUP (`c25_back`). -/
theorem c26_value_group {p : Parser β} {v : ReadValue} (h : ((parseReadValue : P β ReadValue) p).res = .ok v) :
    v.readFormat = p.config.readFormat ∧ contains v.readFormat ReadFormat.GROUP = false := by
  have h3 : p.config.readFormat.getLsbD 3 = false := by
    cases h3 : p.config.readFormat.getLsbD 3 with
    | false => rfl
    | true =>
      obtain ⟨⟨e, h1, _⟩, _⟩ := readValue_refused p _ rfl (.inl h3)
      rw [h1] at h; cases h
  have hr : Inv (fun q : Parser β => q.config = p.config) (fun v => v.readFormat = p.config.readFormat)
      (parseReadValue : P β ReadValue) := by
    have s := Stable.config (β := β) p.config
    unfold parseReadValue
    refine Inv.bind (Inv.config_eq p.config) fun c hc => ?_
    subst hc
    refine Inv.ite (fun _ => Inv.fail _) fun _ => Inv.ite (fun _ => Inv.fail _) fun _ => ?_
    have i (b : Bool) : Inv _ (fun _ => True) (parseIf b parseU64 : P β (Option U64)) :=
      (Inv.parseIf b fun _ => Inv.u64 s).mono fun _ _ => trivial
    exact Inv.skip (Inv.u64 s) fun _ => Inv.skip (i _) fun _ => Inv.skip (i _) fun _ => Inv.skip (i _) fun _ =>
      Inv.skip (i _) fun _ => Inv.pure rfl
  have := (hr p rfl).2 v h
  exact ⟨this, by rw [has_group, this]; exact h3⟩

theorem readValue_inv (cfg : ParseConfig) (h : cfg.readFormat.getLsbD 3 = true ∨ cfg.readFormat.getLsbD 5 = true) :
    Inv (fun p : Parser β => p.config = cfg) (fun _ => False) (parseReadValue : P β ReadValue) := by
  intro p hp
  subst hp
  obtain ⟨⟨e, h1, _⟩, h2⟩ := readValue_refused p _ rfl h
  exact ⟨by rw [h2], fun a ha => by rw [h1] at ha; cases ha⟩

theorem values_inv (cfg : ParseConfig) (h : cfg.readFormat.getLsbD 5 = true) :
    Inv (fun p : Parser β => p.config = cfg) (fun _ => False) (parseValues : P β (ReadGroup Cow)) := by
  refine Inv.bind (Inv.config_eq cfg) fun c hc => Inv.ite (fun _ => ?_) fun _ => ?_
  · intro p hp
    subst hp
    obtain ⟨⟨e, h1, _⟩, h2⟩ := readGroup_refused p _ rfl (.inr h)
    exact ⟨by rw [h2], fun a ha => by rw [h1] at ha; cases ha⟩
  · exact Inv.bind (readValue_inv cfg (.inr h)) fun _ h => h.elim
end

/-- **C26** A READ record, or a sample with READ values, is never returned under such a configuration. -/
theorem c26_records (hp : RepP p f) (e : Endian) (host : Order) (a : Attr) (i : Nat) (h5 : 5 ≤ i)
    (hi : a.readFormat.getLsbD i = true) (hc : f.cfg = .ofAttr e host a) :
    (∀ r, (P.parseRecord p).res ≠ .ok (.read r)) ∧
    (f.cfg.sampleType.getLsbD 4 = true → ∀ s, (P.parseRecord p).res ≠ .ok (.sample s)) := by
  have hm : ∀ m, (f.cfg.withMisc m).readFormat.getLsbD 5 = true := by
    intro m
    rw [ParseConfig.withMisc_readFormat, hc]
    exact readFormat_ofAttr e host a i h5 hi
  refine ⟨fun r hr => ?_, fun hst s hs => ?_⟩
  · obtain ⟨_, γ, _, q, hq, h2⟩ := (P.parseRecord_produced hp hr).2.read
    have s := Stable.config (β := γ) q.config
    have : Inv (fun q' : Parser γ => q'.config = q.config) (fun _ => False) (parseRead : P γ Read) :=
      Inv.skip (Inv.u32 s) fun _ => Inv.skip (Inv.u32 s) fun _ =>
        Inv.bind (readValue_inv _ (.inr (by rw [hq]; exact hm _))) fun _ h => h.elim
    exact (this q rfl).2 _ h2
  · obtain ⟨_, γ, _, q, hq, h2⟩ := (P.parseRecord_produced hp hs).2.sample
    have st := Stable.config (β := γ) q.config
    have i32 (b : Bool) : Inv _ (fun _ => True) (parseIf b parseU32 : P γ (Option U32)) :=
      (Inv.parseIf b fun _ => Inv.u32 st).mono fun _ _ => trivial
    have i64 (b : Bool) : Inv _ (fun _ => True) (parseIf b parseU64 : P γ (Option U64)) :=
      (Inv.parseIf b fun _ => Inv.u64 st).mono fun _ _ => trivial
    have icpu (b : Bool) : Inv _ (fun _ => True) (parseIf b parseCpu : P γ (Option U32)) :=
      (Inv.parseIf b fun _ => Inv.skip (Inv.u32 st) fun _ => Inv.skip (Inv.u32 st) fun _ => Inv.pure trivial).mono
        fun _ _ => trivial
    have : Inv (fun q' : Parser γ => q'.config = q.config) (fun _ => False) (parseSample : P γ (Sample Cow)) := by
      unfold parseSample
      refine Inv.bind (Inv.config_eq q.config) fun c hcc => ?_
      subst hcc
      refine Inv.skip (i64 _) fun _ => Inv.skip (i64 _) fun _ => Inv.skip (i32 _) fun _ => Inv.skip (i32 _) fun _ =>
        Inv.skip (i64 _) fun _ => Inv.skip (i64 _) fun _ => Inv.skip (i64 _) fun _ => Inv.skip (i64 _) fun _ =>
        Inv.skip (icpu _) fun _ => Inv.skip (i64 _) fun _ => ?_
      refine Inv.bind (Inv.parseIf _ fun _ => values_inv _ (by rw [hq]; exact hm _)) fun x hx => ?_
      have h4 : contains q.config.sampleType SampleFlags.READ = true := by
        rw [contains_rf _ 4 (by omega) SampleFlags.READ rfl, hq, ParseConfig.withMisc_sampleType, hst]
      rw [h4] at hx
      cases x with
      | none => exact absurd hx.1 (by decide)
      | some y => exact (hx.2 y rfl).elim
    exact (this q rfl).2 _ h2

/-- Bit 40 of `read_format`: the six bits kept of it are not enough to hold it, yet it is noticed. -/
def demoAttr : Attr := { readFormat := 1#64 <<< 40 ||| 4#64 }
example : (40 : Nat) ≥ 5 ∧ demoAttr.readFormat.getLsbD 40 = true ∧
    (match ((parseReadValue : P Slice ReadValue) (Parser.new ⟨0, [1, 2, 3, 4, 5, 6, 7, 8, 9, 10, 11, 12, 13, 14, 15, 16]⟩
      (.ofAttr (Endian.little .little) .little demoAttr))).res with
    | .error (.err e) => e.kind == .unsupportedConfig
    | _ => false) = true := by decide +kernel

end Perf
