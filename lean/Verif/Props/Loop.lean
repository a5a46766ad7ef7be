import Verif.Proof.Shift
import Verif.Props.Chunking
import Verif.Props.Drain
import Verif.Props.Contig
import Verif.Props.Session
/-!
# C73: a loop over a whole input, and what `Eof` means (C45)

What `parse_record` in a loop does with any input, also one that is damaged: where it cuts the input, that each block is read as if
it were alone, and when the loop is over.
-/
namespace Perf
variable {β γ : Type} {O α : Type}

/-! ## Where an input is cut -/

/-- The size field in the header of the record that `bs` begins with. -/
def sizeField (cfg : ParseConfig) (bs : List Byte) : Nat := (cfg.endian.conv16 ((bs.drop 6).take 2)).toNat

/-- How long the first block is: as long as its header says; at least the header, at most what is there. -/
def firstLen (cfg : ParseConfig) (bs : List Byte) : Nat := min (max 8 (sizeField cfg bs)) bs.length

/-- Cut off the first block, at most `n` times. -/
def cutN (cfg : ParseConfig) : Nat → List Byte → List (List Byte)
  | 0, _ => []
  | n + 1, bs => if bs = [] then [] else bs.take (firstLen cfg bs) :: cutN cfg n (bs.drop (firstLen cfg bs))

/-- The input cut into blocks. -/
def cut (cfg : ParseConfig) (bs : List Byte) : List (List Byte) := cutN cfg bs.length bs

theorem firstLen_pos {cfg : ParseConfig} {bs : List Byte} (h : bs ≠ []) : 0 < firstLen cfg bs := by
  have := List.length_pos_iff.mpr h
  unfold firstLen
  omega

theorem cutN_enough (cfg : ParseConfig) : ∀ (n m : Nat) (bs : List Byte), bs.length ≤ n → bs.length ≤ m → cutN cfg n bs = cutN cfg m bs
  | 0, 0, _, _, _ => rfl
  | 0, m + 1, bs, h, _ => by
    have : bs = [] := List.length_eq_zero_iff.mp (by omega)
    unfold cutN
    rw [if_pos this]
  | n + 1, 0, bs, _, h => by
    have : bs = [] := List.length_eq_zero_iff.mp (by omega)
    unfold cutN
    rw [if_pos this]
  | n + 1, m + 1, bs, h1, h2 => by
    unfold cutN
    split
    · rfl
    · rename_i hne
      have := firstLen_pos (cfg := cfg) hne
      rw [cutN_enough cfg n m _ (by rw [List.length_drop]; omega) (by rw [List.length_drop]; omega)]

theorem cut_nil (cfg : ParseConfig) : cut cfg [] = [] := rfl

theorem cut_cons (cfg : ParseConfig) {bs : List Byte} (h : bs ≠ []) :
    cut cfg bs = bs.take (firstLen cfg bs) :: cut cfg (bs.drop (firstLen cfg bs)) := by
  have h1 := firstLen_pos (cfg := cfg) h
  have h2 := List.length_pos_iff.mpr h
  unfold cut
  obtain ⟨n, hn⟩ : ∃ n, bs.length = n + 1 := ⟨bs.length - 1, by omega⟩
  rw [show cutN cfg bs.length bs = cutN cfg (n + 1) bs by rw [hn]]
  conv => lhs; unfold cutN
  rw [if_neg h, cutN_enough cfg n _ _ (by rw [List.length_drop]; omega) (Nat.le_refl _)]

/-- Where the next block begins. -/
theorem cut_take_succ (cfg : ParseConfig) (bs : List Byte) (k : Nat) :
    ((cut cfg bs).take (k + 1)).flatten.length =
      firstLen cfg bs + ((cut cfg (bs.drop (firstLen cfg bs))).take k).flatten.length := by
  have hle : firstLen cfg bs ≤ bs.length := Nat.min_le_right _ _
  by_cases h : bs = []
  · subst h
    have e : firstLen cfg [] = 0 := Nat.min_eq_right (Nat.zero_le _)
    rw [e, List.drop_nil, cut_nil, List.take_nil, List.take_nil]
    rfl
  · rw [cut_cons cfg h, List.take_succ_cons, List.flatten_cons, List.length_append, List.length_take, Nat.min_eq_left hle]

/-- Induction along the blocks. -/
theorem cut_induction {motive : List Byte → Prop} (cfg : ParseConfig) (nil : motive [])
    (step : ∀ bs, bs ≠ [] → motive (bs.drop (firstLen cfg bs)) → motive bs) (bs : List Byte) : motive bs := by
  by_cases h : bs = []
  · rw [h]; exact nil
  · have := firstLen_pos (cfg := cfg) h
    have := List.length_pos_iff.mpr h
    exact step bs h (cut_induction cfg nil step _)
termination_by bs.length
decreasing_by rw [List.length_drop]; omega

/-- **C73** Nothing is lost and nothing is read twice: the blocks make up the input. None is empty, and there are at most as many as
there are headers' worth of bytes in the input. All but the last are at least as long as a header. -/
theorem c73_blocks (cfg : ParseConfig) (bs : List Byte) :
    (cut cfg bs).flatten = bs ∧ (∀ b ∈ cut cfg bs, b ≠ []) ∧ (cut cfg bs).length ≤ (bs.length + 7) / 8 ∧
    (∀ b ∈ (cut cfg bs).dropLast, 8 ≤ b.length ∧ b.length = max 8 (sizeField cfg b)) := by
  induction bs using cut_induction (cfg := cfg) with
  | nil => exact ⟨rfl, nofun, Nat.zero_le _, nofun⟩
  | step bs h ih =>
    have h1 := firstLen_pos (cfg := cfg) h
    rw [cut_cons cfg h]
    obtain ⟨i1, i2, i3, i4⟩ := ih
    refine ⟨by rw [List.flatten_cons, i1, List.take_append_drop], ?_, ?_, ?_⟩
    · intro b hb
      rcases List.mem_cons.mp hb with rfl | hb
      · intro e
        have e := congrArg List.length e
        rw [List.length_take, List.length_nil] at e
        have := List.length_pos_iff.mpr h
        omega
      · exact i2 b hb
    · rw [List.length_cons]
      rw [List.length_drop] at i3
      unfold firstLen at h1 i3 ⊢
      by_cases h8 : bs.length ≤ max 8 (sizeField cfg bs)
      · rw [Nat.min_eq_right h8, List.drop_length, cut_nil]
        have := List.length_pos_iff.mpr h
        simp only [List.length_nil]
        omega
      · rw [Nat.min_eq_left (by omega)] at i3 ⊢
        omega
    · intro b hb
      by_cases hd : bs.drop (firstLen cfg bs) = []
      · rw [hd, cut_nil] at hb
        cases hb
      · rw [cut_cons cfg hd, List.dropLast_cons_cons, ← cut_cons cfg hd] at hb
        rcases List.mem_cons.mp hb with rfl | hb
        · have hl : firstLen cfg bs < bs.length := by
            rcases Nat.lt_or_ge (firstLen cfg bs) bs.length with hl | hl
            · exact hl
            · exact absurd (List.drop_eq_nil_of_le hl) hd
          have hf : firstLen cfg bs = max 8 (sizeField cfg bs) := by unfold firstLen at hl ⊢; omega
          have hs : sizeField cfg (bs.take (firstLen cfg bs)) = sizeField cfg bs := by
            unfold sizeField
            rw [List.drop_take, List.take_take, Nat.min_eq_left (by omega)]
          rw [hs, List.length_take]
          omega
        · exact i4 b hb

/-! ## The loop -/

section
variable [ParseBuf β]

theorem visitMany_record : ∀ (n : Nat) (p : Parser β), visitMany (recordVisitor Cow) n p = parseMany n p
  | 0, _ => rfl
  | n + 1, p => by
    unfold visitMany parseMany
    rw [visitMany_record n]
    rfl

/-- **C73** How far a parser has come does not matter: a parser that has read something does with what is left what a new parser
does. For every buffer, lawful or not, and every visitor. -/
theorem c73_fresh (v : Visitor Cow O) (p : Parser β) :
    P.record v p = (P.record v (Parser.new p.data.buf p.config)).shift p.data.offset := (Shifts.record v).fresh p

/-- **C73** The same for every program over the public interface. -/
theorem c73_fresh_program (x : Prog α) (p : Parser β) :
    x.run β p = (x.run β (Parser.new p.data.buf p.config)).shift p.data.offset := (Shifts.prog x).fresh p

variable [LawfulEof β] {p : Parser β} {f : Flat}

theorem recordEnd_eq (f : Flat) : recordEnd f = firstLen f.cfg f.s.bytes := by
  have : (headerAt f).size.toNat = sizeField f.cfg f.s.bytes := rfl
  unfold recordEnd firstLen
  rw [this]
  split
  · omega
  · split <;> omega

/-- **C73** After `k` calls the parser is behind the first `k` blocks; for every input, buffer and visitor. -/
theorem c73_position (hp : RepP p f) (hf : f.s.fin.kind = .eof) (v : Visitor Cow O) (k : Nat) :
    RepP (visitMany v k p).2 (f.adv ((cut f.cfg f.s.bytes).take k).flatten.length) := by
  induction k generalizing p f with
  | zero => rw [List.take_zero]; show RepP p (f.adv 0); rw [Flat.adv_zero]; exact hp
  | succ k ih =>
    have h1 := c67_record hp hf v
    rw [recordEnd_eq] at h1
    have h2 := ih h1 hf
    rw [Flat.adv_adv, Flat.adv_bytes, Flat.adv_cfg] at h2
    rw [cut_take_succ]
    exact h2

/-- **C73** The loop ends: after as many calls as there are blocks (at most one for eight bytes) everything is consumed, and every
further call reports the end of the input. -/
theorem c73_end (hp : RepP p f) (hf : f.s.fin.kind = .eof) (v : Visitor Cow O) (k : Nat) (hk : (cut f.cfg f.s.bytes).length ≤ k) :
    RepP (visitMany v k p).2 (f.adv f.s.bytes.length) ∧ (P.record v (visitMany v k p).2).res = .error (.err f.s.fin) := by
  have h := c73_position hp hf v k
  rw [List.take_of_length_le hk, (c73_blocks _ _).1] at h
  exact ⟨h, c06_truncated h v (.inl (by rw [Flat.adv_bytes, List.drop_length]; decide))⟩

variable [ParseBuf γ] [LawfulEof γ] {q : Parser γ} {g : Flat}

/-- The results of the calls match one by one. -/
def AllSame (v : Visitor Cow O) : List (Except Fault O) → List (Except Fault O) → Prop
  | [], [] => True
  | x :: xs, y :: ys => SameOutcome v x y ∧ AllSame v xs ys
  | _, _ => False

/-- **C73** However the input is divided into chunks, the loop does the same. Full statement: without `hsf` and `hsg`, which exclude
records whose outcome depends on where they are in memory or on which parts are borrowed, like `c02_chunking_partial`. -/
theorem c73_chunking_partial (hp : RepP p f) (hq : RepP q g) (h : SameBytes f g) (hf : f.s.fin.kind = .eof) (v : Visitor Cow O) (k : Nat)
    (hsf : ∀ i < k, Settled (f.adv ((cut f.cfg f.s.bytes).take i).flatten.length))
    (hsg : ∀ i < k, Settled (g.adv ((cut f.cfg f.s.bytes).take i).flatten.length)) :
    AllSame v (visitMany v k p).1 (visitMany v k q).1 := by
  induction k generalizing p q f g with
  | zero => trivial
  | succ k ih =>
    have h0 : SameOutcome v (P.record v p).res (P.record v q).res := by
      have hf0 := hsf 0 (by omega)
      have hg0 := hsg 0 (by omega)
      rw [List.take_zero] at hf0 hg0
      exact c02_chunking_partial hp hq h (by rw [← f.adv_zero]; exact hf0) (by rw [← g.adv_zero]; exact hg0) v
    have hp1 := c67_record hp hf v
    have hq1 := c67_record hq (by rw [← h.fin]; exact hf) v
    rw [recordEnd_eq] at hp1 hq1
    rw [← h.cfg, ← h.bytes] at hq1
    refine ⟨h0, ih hp1 hq1 ⟨by rw [Flat.adv_bytes, Flat.adv_bytes, h.bytes], h.fin, h.cfg⟩ hf (fun i hi => ?_) fun i hi => ?_⟩
    · have := hsf (i + 1) (by omega)
      rw [cut_take_succ, ← Flat.adv_adv] at this
      rw [Flat.adv_bytes]
      exact this
    · have := hsg (i + 1) (by omega)
      rw [cut_take_succ, ← Flat.adv_adv] at this
      rw [Flat.adv_bytes]
      exact this
end

/-! ## Slices -/

/-- Each block parsed alone, in the memory it lies in. -/
def alone (v : Visitor Cow O) (cfg : ParseConfig) : Nat → List (List Byte) → List (Except Fault O)
  | _, [] => []
  | a, b :: bs => (P.record v (Parser.new (⟨a, b⟩ : Slice) cfg)).res :: alone v cfg (a + b.length) bs

theorem record_alone (v : Visitor Cow O) (a : Nat) (d : List Byte) {cfg : ParseConfig} (hw : cfg.Wf) :
    (P.record v (Parser.new (⟨a, d⟩ : Slice) cfg)).res = (P.record v (Parser.new (⟨a, d.take (firstLen cfg d)⟩ : Slice) cfg)).res := by
  rcases Nat.lt_or_ge (firstLen cfg d) d.length with h | h
  · have hf : firstLen cfg d = max 8 (sizeField cfg d) := by unfold firstLen at h ⊢; omega
    have hs : sizeField cfg (d.take (firstLen cfg d)) = sizeField cfg d := by
      unfold sizeField
      rw [List.drop_take, List.take_take, Nat.min_eq_left (by omega)]
    have hc : Complete cfg (d.take (firstLen cfg d)) := by
      refine ⟨by rw [List.length_take]; omega, ?_⟩
      show sizeField cfg _ ≤ _
      rw [hs, List.length_take]
      omega
    have := c09_slice a (d.take (firstLen cfg d)) (d.drop (firstLen cfg d)) [] hw hc v
    rw [List.take_append_drop, List.append_nil] at this
    exact this
  · rw [List.take_of_length_le h]

theorem alone_address (v : Visitor Cow O) {cfg : ParseConfig} (hw : cfg.Wf) : ∀ (bss : List (List Byte)) (a b : Nat), a % 8 = b % 8 →
    alone v cfg a bss = alone v cfg b bss
  | [], _, _, _ => rfl
  | bs :: bss, a, b, h => by
    unfold alone
    rw [c70_address a b h bs hw v, alone_address v hw bss (a + bs.length) (b + bs.length) (by omega)]

theorem visitMany_alone (v : Visitor Cow O) {cfg : ParseConfig} (hw : cfg.Wf) (d : List Byte) :
    ∀ (a : Nat) (p : Parser Slice), p.config = cfg → p.data.buf.data = d → p.data.buf.addr % 8 = a % 8 →
      (visitMany v (cut cfg d).length p).1 = alone v cfg a (cut cfg d) := by
  induction d using cut_induction (cfg := cfg) with
  | nil => intro a p _ _ _; rfl
  | step d h ih =>
    intro a p h1 h2 h3
    rw [cut_cons cfg h, List.length_cons]
    have hp : RepP p ⟨⟨d, .at p.data.buf.addr, .eof⟩, p.data.offset, cfg⟩ := ⟨⟨h2.symm, rfl, rfl⟩, rfl, h1, hw⟩
    have hq := c67_record hp rfl v
    rw [recordEnd_eq] at hq
    have hl : (d.take (firstLen cfg d)).length = firstLen cfg d := by
      rw [List.length_take]
      exact Nat.min_eq_left (Nat.min_le_right _ _)
    unfold visitMany alone
    rw [ih (a + (d.take (firstLen cfg d)).length) _ hq.cfg hq.rep.1.symm (by
      have h4 : (P.record v p).st.data.buf.addr % 8 = (p.data.buf.addr + firstLen cfg d) % 8 := hq.rep.2.2
      rw [h4, hl]
      omega)]
    show _ :: _ = _ :: _
    congr 1
    rw [c73_fresh v p, h1, show p.data.buf = ⟨p.data.buf.addr, d⟩ by rw [← h2]]
    show (P.record v (Parser.new (⟨p.data.buf.addr, d⟩ : Slice) cfg)).res = _
    rw [c70_address _ a h3 d hw v, record_alone v a d hw]

/-- **C73** On a slice, for every input and visitor: the loop returns what parsing each block alone, in its own place, returns, in
order. -/
theorem c73_slice (v : Visitor Cow O) (a : Nat) (d : List Byte) {cfg : ParseConfig} (hw : cfg.Wf) :
    (visitMany v (cut cfg d).length (Parser.new (⟨a, d⟩ : Slice) cfg)).1 = alone v cfg a (cut cfg d) :=
  visitMany_alone v hw d a _ rfl rfl rfl

/-! ## Loops that stop at `Eof` -/

/-- The call failed with an error of kind `Eof`. -/
def endsLoop {α : Type} : Except Fault α → Bool
  | .error (.err e) => e.kind == .eof
  | _ => false

/-- What one writes: `loop { match parser.parse::<Record>() { Err(e) if e.kind() == ErrorKind::Eof => break, r => out.push(r) } }`,
at most `n` times round. Nothing if it is not over by then. -/
def untilEof [ParseBuf β] : Nat → Parser β → Option (List (Except Fault (Record Cow)))
  | 0, _ => none
  | n + 1, p =>
    if endsLoop (P.parseRecord p).res then some [] else (untilEof n (P.parseRecord p).st).map ((P.parseRecord p).res :: ·)

section
variable [ParseBuf β]

/-- The loop returns what comes before the first `Eof`. -/
theorem untilEof_eq : ∀ (n k : Nat) (p : Parser β), k < n → (∀ x ∈ (parseMany k p).1, endsLoop x = false) →
    endsLoop (P.parseRecord (parseMany k p).2).res = true → untilEof n p = some (parseMany k p).1
  | 0, _, _, h, _, _ => by omega
  | n + 1, 0, p, _, _, h => by
    unfold untilEof
    rw [if_pos (show endsLoop (P.parseRecord p).res = true from h)]
    rfl
  | n + 1, k + 1, p, h1, h2, h3 => by
    have h4 : endsLoop (P.parseRecord p).res = false := h2 _ (List.mem_cons_self ..)
    unfold untilEof
    rw [h4, if_neg (by decide), untilEof_eq n k _ (by omega) (fun x hx => h2 x (List.mem_cons_of_mem _ hx)) h3]
    rfl

theorem untilEof_some : ∀ (n k : Nat) (p : Parser β), k < n → endsLoop (P.parseRecord (parseMany k p).2).res = true → ∃ l, untilEof n p = some l
  | 0, _, _, h, _ => by omega
  | n + 1, 0, p, _, h => ⟨[], by
    unfold untilEof
    rw [if_pos (show endsLoop (P.parseRecord p).res = true from h)]⟩
  | n + 1, k + 1, p, h1, h3 => by
    unfold untilEof
    split
    · exact ⟨_, rfl⟩
    · obtain ⟨l, hl⟩ := untilEof_some n k _ (by omega) h3
      rw [hl]
      exact ⟨_, rfl⟩

variable [LawfulEof β] {p : Parser β} {f : Flat}

/-- **C73** Such a loop comes to an end on every input. -/
theorem c73_while_ends (hp : RepP p f) (hf : f.s.fin.kind = .eof) : ∃ l, untilEof ((f.s.bytes.length + 7) / 8 + 1) p = some l := by
  have h := (c73_end hp hf (recordVisitor Cow) _ (Nat.le_refl _)).2
  rw [visitMany_record] at h
  refine untilEof_some _ _ p (Nat.lt_succ_of_le (c73_blocks f.cfg f.s.bytes).2.2.1) ?_
  show endsLoop (P.record (recordVisitor Cow) _).res = true
  rw [h]
  show (f.s.fin.kind == .eof) = true
  rw [hf]
  rfl

/-- **C73** On a stream of records as the kernel writes them it returns all of them. Full statement: without `hok` and `hal`; a record
that is too short for its type, or a SWITCH record, ends the loop early (`c73_while_false`, `c73_switch_false`). -/
theorem c73_while_partial {o : Order} (hp : RepP p f) (hf : f.s.fin.kind = .eof) (hs : Src f.cfg o) (rs : List KRecord)
    (hok : ∀ r ∈ rs, r.body.Ok o f.cfg r.misc ∧ r.size o f.cfg < 65536)
    (hal : (∃ r ∈ rs, r.body.needsAlignment = true) → f.cfg.endian.isNative = true →
      f.s.al = .temp ∨ AlMod f.s.al 0 ∧ ∀ r ∈ rs, r.size o f.cfg % 8 = 0)
    (hb : f.s.bytes = encAll o f.cfg rs) :
    ∃ l, untilEof (rs.length + 1) p = some l ∧ Decodes f.cfg l rs := by
  have h1 := (c10_stream_partial hp hs rs hok hal (tl := []) (by simpa using hb)).1
  have h2 := c10_end hp hs rs hok hal hb
  refine ⟨_, untilEof_eq _ rs.length p (Nat.lt_succ_self _) ?_ (by rw [h2]; show (f.s.fin.kind == .eof) = true; rw [hf]; rfl), h1⟩
  have : ∀ (l : List (Except Fault (Record Cow))) (rs : List KRecord), Decodes f.cfg l rs → ∀ x ∈ l, endsLoop x = false := by
    intro l
    induction l with
    | nil => intro _ _ x hx; cases hx
    | cons y l ih =>
      intro rs h x hx
      cases rs with
      | nil => exact h.elim
      | cons r rs =>
        rcases List.mem_cons.mp hx with rfl | hx
        · obtain ⟨a, ha, _⟩ := h.1
          rw [ha]
          rfl
        · exact ih rs h.2 x hx
  exact this _ rs h1

end

/-- **C73** `Eof` does not mean that the input ended: a LOST record that is too short ends the loop, though a good record follows.
A loop that goes on until nothing is left returns both. -/
theorem c73_while_false :
    (match untilEof 9 (Parser.new (⟨0, demoBad⟩ : Slice) demoCfg) with
      | some [] => true
      | _ => false) = true ∧
    (match (parseMany 2 (Parser.new (⟨0, demoBad⟩ : Slice) demoCfg)).1 with
      | [.error (.err e), .ok (.lost r)] => e.kind == .eof && r == ⟨7, 3⟩
      | _ => false) = true := by decide +kernel

/-- **C73** The same with records as the kernel writes them: SWITCH, then SWITCH_CPU_WIDE. -/
theorem c73_switch_false :
    (match untilEof 9 (Parser.new (⟨4096, encAll .little demoCfg [demoSwitchIn, demoSwitch]⟩ : Slice) demoCfg) with
      | some [] => true
      | _ => false) = true := by decide +kernel

/-- The input of `c73_while_false` is cut into the short record, the good one, and the three bytes left over. -/
example : (cut demoCfg demoBad).map List.length = [16, 24, 3] := by decide +kernel

/-! ## C45: what `Eof` means -/

section
variable [ParseBuf β] [LawfulEof β] {p : Parser β} {f : Flat}

/-- The body of a record of this type, in bytes that begin with `bs`, ran out of bytes: a parser over a beginning of `bs` fails with `e`
and has then consumed all of it. -/
def RunsOut (ty : U32) (bs : List Byte) (e : ParseError) : Prop :=
  ∃ (γ : Type) (_ : ParseBuf γ) (_ : LawfulEof γ) (c : Parser γ) (r : Flat) (len : Nat), RepP c r ∧ r.s.bytes = bs.take len ∧
    ((parseBody ty : P γ (Record Cow)) c).res = .error (.err e) ∧ RepP ((parseBody ty : P γ (Record Cow)) c).st (r.adv r.s.bytes.length)

theorem P.recordWithHeader_eof (hp : RepP p f) (h : Header) {e : ParseError} (he : (P.parseRecordWithHeader h p).res = .error (.err e))
    (hk : e.kind = .eof) :
    (h.size.toNat - 8 > f.s.bytes.length ∧ e = f.s.fin) ∨
    (8 ≤ h.size.toNat ∧ h.size.toNat - 8 ≤ f.s.bytes.length ∧ RunsOut h.type_ (f.s.bytes.take (h.size.toNat - 8)) e) := by
  obtain ⟨h1, h2, h3⟩ := P.metadataWithHeader_run hp h
  have he : (P.recordWithHeader (recordVisitor Cow) h p).res = .error (.err e) := he
  unfold P.recordWithHeader at he
  have key : ∀ {r : Flat} {md : Metadata} {g : Flat} {len : Nat}, Spec.metadataWithHeader h f = .ok ((r, md), g) → md.ty = h.type_ →
      r = f.region len → len ≤ h.size.toNat - 8 → RunsOut h.type_ (f.s.bytes.take (h.size.toNat - 8)) e := by
    intro r md g len hs hty hr hlen
    rw [hs] at h3
    obtain ⟨c, hc, hreg⟩ := h3
    rw [P.bind_ok (P.run_eq _ hc)] at he
    have body : ∀ {γ : Type} [ParseBuf γ] [LawfulEof γ] (q : Parser γ) (st : Parser β), RepP q r →
        (P.recordImpl q (recordVisitor Cow) md st).res = .error (.err e) → RunsOut h.type_ (f.s.bytes.take (h.size.toNat - 8)) e := by
      intro γ _ _ q st hq he
      have hrep := hq.withMisc hreg.zero md.misc
      have hd : (P.dispatch (recordVisitor Cow) md (Parser.new q.data (q.config.withMisc md.misc))).res = .error (.err e) := by
        unfold P.recordImpl at he
        rcases hd : P.dispatch (recordVisitor Cow) md (Parser.new q.data (q.config.withMisc md.misc)) with ⟨res, q', l⟩
        cases res with
        | error e' =>
          rw [P.bind_err (P.onChild_err hd st)] at he
          exact he
        | ok a =>
          rw [P.bind_ok (P.onChild_ok hd st)] at he
          cases he
      rw [P.dispatch_eq, hty] at hd
      have hb : ((parseBody h.type_ : P (Tracking γ) (Record Cow)) (Parser.new q.data (q.config.withMisc md.misc))).res = .error (.err e) := by
        rcases hres : ((parseBody h.type_ : P (Tracking γ) (Record Cow)) (Parser.new q.data (q.config.withMisc md.misc))).res with e' | a
        · rw [P.bind_err (P.run_eq _ hres)] at hd
          exact hd
        · rw [P.bind_ok (P.run_eq _ hres)] at hd
          have hv : (recordVisitor Cow).apply a md = .error (.err e) := hd
          obtain ⟨a', ha, _⟩ := recordVisitor_view a md
          rw [ha] at hv
          cases hv
      refine ⟨Tracking γ, inferInstance, inferInstance, _, _, len, hrep, ?_, hb, ?_⟩
      · show r.s.bytes = _
        rw [hr, List.take_take, Nat.min_eq_left hlen]
        rfl
      · exact (UsesUp.closed.body h.type_).run hrep (by show r.s.fin.kind = _; rw [hr]; rfl) hb hk
    simp only at he
    cases has : c.data.buf.asSlice with
    | some s =>
      rw [has] at he
      exact body _ _ (hreg.asSlice has).1 he
    | none =>
      rw [has] at he
      exact body _ _ hreg.rep he
  rcases Spec.metadata_cases h f with m | m | m | m | ⟨m1, m2, m3, m4, sid, g, m5, m6⟩
  · rw [m.2] at h3
    rw [P.bind_err (P.run_eq _ h3)] at he
    cases he
    cases hk
  · rw [m.2.2] at h3
    rw [P.bind_err (P.run_eq _ h3)] at he
    cases he
    exact .inl ⟨m.2.1, rfl⟩
  · exact .inr ⟨m.1, m.2.1, key m.2.2.2 rfl rfl (Nat.le_refl _)⟩
  · rw [m.2.2.2.2] at h3
    rw [P.bind_err (P.run_eq _ h3)] at he
    cases he
    cases hk
  · exact .inr ⟨m1, m2, key m6 rfl rfl (by omega)⟩

/-- **C45** `Eof` from `parse_record`. Full statement: only the first case, i.e. the input ended. The other case does happen
(`c45_eof_false`): the record is all there, but its contents need more bytes than its header announces. -/
theorem c45_eof_partial (hp : RepP p f) {e : ParseError} (he : (P.parseRecord p).res = .error (.err e)) (hk : e.kind = .eof) :
    (e = f.s.fin ∧ (f.s.bytes.length < 8 ∨ f.s.bytes.length < (headerAt f).size.toNat)) ∨
    (8 ≤ (headerAt f).size.toNat ∧ (headerAt f).size.toNat ≤ f.s.bytes.length ∧
      RunsOut (headerAt f).type_ ((f.s.bytes.take (headerAt f).size.toNat).drop 8) e) := by
  rcases P.record_run hp (recordVisitor Cow) with ⟨h8, h, _⟩ | ⟨h8, q, hq, _, h⟩
  · have : (P.parseRecord p).res = .error (.err f.s.fin) := h
    rw [this] at he
    cases he
    exact .inl ⟨rfl, .inl h8⟩
  · have h0 : P.parseRecord p = P.parseRecordWithHeader (headerAt f) q := h
    rw [h0] at he
    rcases P.recordWithHeader_eof hq (headerAt f) he hk with ⟨h1, h2⟩ | ⟨h1, h2, h3⟩
    · rw [Flat.adv_bytes, List.length_drop] at h1
      exact .inl ⟨h2, .inr (by omega)⟩
    · rw [Flat.adv_bytes, List.length_drop] at h2
      rw [Flat.adv_bytes, ← List.drop_take] at h3
      exact .inr ⟨h1, by omega, h3⟩

/-- **C45** `Eof` though there are 27 more bytes, the first 24 of them a good record. -/
theorem c45_eof_false :
    (match (P.parseRecord (Parser.new (⟨0, demoBad⟩ : Slice) demoCfg)) with
    | ⟨.error (.err e), st, _⟩ => e.kind == .eof && st.data.buf.data.length == 27 && (match (P.parseRecord st).res with
        | .ok (.lost r) => r == ⟨7, 3⟩
        | _ => false)
    | _ => false) = true := by decide +kernel
end

end Perf
