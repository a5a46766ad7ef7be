import Verif.Props.Borrow
import Verif.Props.Values
import Verif.Props.Fast
import Verif.Props.Visit
import Verif.Props.Streams
/-!
# C15: TEXT_POKE records, for data in memory without exceptions; what happens to the exceptions in data from a reader
-/
namespace Perf
variable {β γ : Type} [ParseBuf β] [Lawful β] [ParseBuf γ] [Lawful γ] {p : Parser β} {f : Flat} {o : Order} {tl : List Byte}
  {O : Type}

omit [Lawful β] in
/-- `parse_record` is `parse_metadata`, then the body in the sub-parser, then the visitor. -/
theorem P.record_body (p : Parser β) (v : Visitor Cow O) {c : Parser Cursor} {md : Metadata}
    (hm : (P.metadata p).res = .ok (c, md)) :
    (P.record v p).res = match ((parseBody md.ty : P (Tracking Cursor) (Record Cow))
        (Parser.new c.data (c.config.withMisc md.misc))).res with
      | .ok r => v.apply r md
      | .error e => .error e := by
  unfold P.metadata at hm
  rcases hh : ((parseHeader : P β Header) p).res with e | h
  · rw [P.bind_err (P.run_eq _ hh)] at hm
    cases hm
  · rw [P.bind_ok (P.run_eq _ hh)] at hm
    unfold P.record
    rw [P.bind_ok (P.run_eq _ hh)]
    simp only
    rw [(c03_fast_path v h _).1]
    unfold P.recordWithHeaderGeneral
    rw [P.bind_ok (P.run_eq _ hm)]
    exact P.recordImpl_res c v md _

/-- The body of a TEXT_POKE record, with the split left as it is in the code. -/
theorem P.textPoke_split {q : Parser γ} {g : Flat} (hq : RepP q g) (hs : Src g.cfg o) (addr : U64) (old new pad : List Byte)
    (hp : pad.length < 8) (hm : (old.length + new.length + pad.length) % 8 = 4) (ho : old.length < 65536)
    (hn : new.length < 65536)
    (hb : g.s.bytes = e64 o addr ++ e16 o (BitVec.ofNat 16 old.length) ++ e16 o (BitVec.ofNat 16 new.length) ++
      (old ++ new ++ pad) ++ tl) :
    ∃ c x y : Cow Byte, c.data = old ++ new ++ pad ∧ c.splitAt old.length = some (x, y) ∧
      ((parseTextPoke : P γ (TextPoke Cow)) q).res = .ok ⟨addr, x, y.truncate new.length⟩ := by
  simp only [List.append_assoc] at hb
  obtain ⟨_, h1, rfl, r1⟩ := Refines.reads Refines.u64 hq (Reads.u64 (nd := ⟨false, false⟩) (k := 0) hs addr) nofun nofun hb
  obtain ⟨_, h2, rfl, r2⟩ := Refines.reads Refines.u16 r1
    (Reads.u16 (nd := ⟨false, false⟩) (k := 0) hs (BitVec.ofNat 16 old.length)) nofun nofun (by rw [Flat.adv_bytes, hb, List.drop_left])
  obtain ⟨_, h3, rfl, r3⟩ := Refines.reads Refines.u16 r2
    (Reads.u16 (nd := ⟨false, false⟩) (k := 0) hs (BitVec.ofNat 16 new.length)) nofun nofun (by
      rw [Flat.adv_bytes, Flat.adv_bytes, hb, List.drop_left, List.drop_left])
  have hl : roundUpMod (old.length + new.length) 4 8 = (old ++ new ++ pad).length := by
    unfold roundUpMod
    simp only [List.length_append]
    split <;> omega
  have hne : old ++ new ++ pad ≠ [] := by
    intro h
    have := congrArg List.length h
    simp only [List.length_append, List.length_nil] at this
    omega
  generalize hgq : ((((g.adv _).adv _).adv _) : Flat) = g3 at r3
  have hb3 : g3.s.bytes = (old ++ new ++ pad) ++ tl := by
    rw [← hgq, Flat.adv_bytes, Flat.adv_bytes, Flat.adv_bytes, hb, List.drop_left, List.drop_left, List.drop_left]
    simp only [List.append_assoc]
  have h4 := (P.bytes_takes r3 (old ++ new ++ pad).length).1
  unfold TakesNe at h4
  rw [if_neg (by rw [hb3]; simp only [ne_eq, List.append_eq_nil_iff, not_and] at hne ⊢; intro h; exact absurd h (by simpa using hne))] at h4
  obtain ⟨c, hc, h4⟩ := h4
  unfold Takes at h4
  rw [if_pos (by rw [hb3, List.length_append (as := old ++ new ++ pad)]; exact Nat.le_add_right _ _)] at h4
  rw [hb3, List.take_left] at hc
  have hsp : ∃ x y, c.splitAt old.length = some (x, y) := by
    have hle : old.length ≤ c.data.length := by rw [hc]; simp only [List.length_append]; omega
    cases c with
    | borrowed d => exact ⟨_, _, if_pos hle⟩
    | owned d =>
      show ∃ x y, (if old.length = 0 then some (Cow.owned d, Cow.borrowed [])
        else if old.length = d.length then some (Cow.borrowed [], Cow.owned d)
        else if old.length ≤ d.length then some (Cow.owned (d.take old.length), Cow.owned (d.drop old.length)) else none) =
          some (x, y)
      by_cases a : old.length = 0
      · exact ⟨_, _, if_pos a⟩
      · rw [if_neg a]
        by_cases b : old.length = d.length
        · exact ⟨_, _, if_pos b⟩
        · rw [if_neg b]
          exact ⟨_, _, if_pos hle⟩
  obtain ⟨x, y, hxy⟩ := hsp
  refine ⟨c, x, y, hc, hxy, ?_⟩
  unfold parseTextPoke
  rw [P.bind_ok (P.run_eq _ h1), P.bind_ok (P.run_eq _ h2), P.bind_ok (P.run_eq _ h3)]
  rw [toNat_ofNat_lt (show old.length < 2 ^ 16 from ho), toNat_ofNat_lt (show new.length < 2 ^ 16 from hn), hl]
  show ((P.bytes (old ++ new ++ pad).length >>= _) _).res = _
  rw [P.bind_ok (P.run_eq _ h4.1)]
  have hcs : ∀ st : Parser γ, (ParserM.cowSplitAt c old.length : P γ (Cow Byte × Cow Byte)) st = ⟨.ok (x, y), st, []⟩ := by
    intro st
    simp only [ParserM.cowSplitAt, hxy]
    rfl
  rw [P.bind_ok (hcs _)]
  rfl

/-- The record, with the split left as it is in the code. -/
theorem P.record_poke (hp : RepP p f) (hs : Src f.cfg o) (misc : U16) (t : KTrailer) (addr : U64)
    (old new pad : List Byte) (hpad : pad.length < 8) (h8 : (old.length + new.length + pad.length) % 8 = 4)
    (hsize : (KRecord.mk misc (.textPoke addr old new pad) t).size o f.cfg < 65536)
    (hb : f.s.bytes = (KRecord.mk misc (.textPoke addr old new pad) t).enc o f.cfg ++ tl) :
    ∃ c x y : Cow Byte, c.data = old ++ new ++ pad ∧ c.splitAt old.length = some (x, y) ∧
      (P.parseRecord p).res = .ok (.textPoke ⟨addr, x, y.truncate new.length⟩) := by
  have he : (KRecord.mk misc (.other 20 ((KBody.textPoke addr old new pad).enc o f.cfg)) t).enc o f.cfg =
      (KRecord.mk misc (.textPoke addr old new pad) t).enc o f.cfg := rfl
  have hz : (KRecord.mk misc (.other 20 ((KBody.textPoke addr old new pad).enc o f.cfg)) t).size o f.cfg =
      (KRecord.mk misc (.textPoke addr old new pad) t).size o f.cfg := rfl
  obtain ⟨c, hm, hc, _⟩ := c54_metadata hp hs 20 misc ((KBody.textPoke addr old new pad).enc o f.cfg) t (by rw [hz]; exact hsize)
    (by rw [he]; exact hb)
  have hbody := P.record_body p (recordVisitor Cow) hm
  have hlen : (KBody.textPoke addr old new pad).enc o f.cfg = e64 o addr ++ e16 o (BitVec.ofNat 16 old.length) ++
      e16 o (BitVec.ofNat 16 new.length) ++ (old ++ new ++ pad) := rfl
  have hsz : old.length + new.length < 65536 := by
    unfold KRecord.size at hsize
    simp only [hlen, List.length_append] at hsize
    omega
  have hq := hc.withMisc rfl misc
  obtain ⟨d, x, y, h1, h2, h3⟩ := P.textPoke_split (tl := []) hq (hs.withMisc misc) addr old new pad hpad h8 (by omega) (by omega)
    (by rw [List.append_nil]; rfl)
  refine ⟨d, x, y, h1, h2, ?_⟩
  have h4 : ((parseBody 20#32 : P (Tracking Cursor) (Record Cow)) (Parser.new c.data (c.config.withMisc misc))).res =
      .ok (.textPoke ⟨addr, x, y.truncate new.length⟩) := by
    show (((do let r ← parseTextPoke; pure (.textPoke r)) : P (Tracking Cursor) (Record Cow)) _).res = _
    rw [P.bind_ok (P.run_eq _ h3)]
    rfl
  simp only [show (parseBody 20 : P (Tracking Cursor) (Record Cow)) = parseBody 20#32 from rfl, h4] at hbody
  exact hbody

theorem Cow.splitAt_borrowed {X : Type} {c x y : Cow X} {n : Nat} (h : c.splitAt n = some (x, y)) {d : List X}
    (hc : c = .borrowed d) : x.data = c.data.take n ∧ y.data = c.data.drop n := by
  subst hc
  unfold Cow.splitAt at h
  simp only at h
  split at h <;> cases h
  exact ⟨rfl, rfl⟩

/-- **C15** for data in memory, in full: also if there are no old bytes, or no new bytes and no padding. -/
theorem c15_text_poke_memory (addr₀ : Nat) (bs : List Byte) (cfg : ParseConfig) (hw : cfg.Wf) (hs : Src cfg o) (misc : U16)
    (t : KTrailer) (addr : U64) (old new pad : List Byte) (hpad : pad.length < 8)
    (h8 : (old.length + new.length + pad.length) % 8 = 4)
    (hsize : (KRecord.mk misc (.textPoke addr old new pad) t).size o cfg < 65536)
    (hb : bs = (KRecord.mk misc (.textPoke addr old new pad) t).enc o cfg ++ tl) :
    ∃ tp : TextPoke Cow, (P.parseRecord (Parser.new (⟨addr₀, bs⟩ : Slice) cfg)).res = .ok (.textPoke tp) ∧
      tp.addr = addr ∧ tp.oldBytes.data = old ∧ tp.newBytes.data = new := by
  obtain ⟨c, x, y, h1, h2, h3⟩ := P.record_poke (p := Parser.new (⟨addr₀, bs⟩ : Slice) cfg)
    (f := ⟨⟨bs, .unknown, .eof⟩, 0, cfg⟩) ⟨show Slice.Rep _ _ from ⟨rfl, rfl, trivial⟩, rfl, rfl, hw⟩ hs misc t addr old new pad hpad h8 hsize hb
  refine ⟨_, h3, rfl, ?_⟩
  obtain ⟨⟨dx, hx, _⟩, dy, hy, _⟩ := c47_borrowed_record addr₀ bs cfg h3
  simp only at hx hy
  obtain ⟨dy', hy'⟩ := (c41_truncate y new.length).2.mpr ⟨dy, hy⟩
  have hd : x.data = old ∧ y.data = new ++ pad := by
    cases c with
    | borrowed d =>
      have h := Cow.splitAt_borrowed h2 rfl
      rw [h1, List.append_assoc, List.take_left, List.drop_left] at h
      exact h
    | owned d =>
      unfold Cow.splitAt at h2
      simp only at h2
      split at h2
      · cases h2; cases hx
      · split at h2
        · cases h2; cases hy'
        · split at h2 <;> cases h2
          cases hx
  simp only [(c41_truncate y new.length).1, hd.1, hd.2, List.take_left, true_and]

/-- **C15**, exactly what data from a reader gives: without old bytes the new ones and the padding are reported as the old ones;
without new bytes and padding the old ones are lost; otherwise the record is right. Left out is the record that pokes nothing
to nothing. -/
theorem c15_reader_exact (rd : BufReader) (cfg : ParseConfig) {s : Stream} (hr : Lawful.Rep rd s) (hw : cfg.Wf) (hs : Src cfg o)
    (misc : U16) (t : KTrailer) (addr : U64) (old new pad : List Byte) (hpad : pad.length < 8)
    (h8 : (old.length + new.length + pad.length) % 8 = 4) (hne : old ++ new ≠ [])
    (hsize : (KRecord.mk misc (.textPoke addr old new pad) t).size o cfg < 65536)
    (hb : s.bytes = (KRecord.mk misc (.textPoke addr old new pad) t).enc o cfg ++ tl) :
    ∃ tp : TextPoke Cow, (P.parseRecord (Parser.new rd cfg)).res = .ok (.textPoke tp) ∧ tp.addr = addr ∧
      (tp.oldBytes.data, tp.newBytes.data) =
        if old = [] then (new ++ pad, []) else if new ++ pad = [] then ([], []) else (old, new) := by
  obtain ⟨c, x, y, h1, h2, h3⟩ := P.record_poke (p := Parser.new rd cfg) (f := ⟨s, 0, cfg⟩) ⟨hr, rfl, rfl, hw⟩ hs misc t addr old new pad hpad h8 hsize hb
  refine ⟨_, h3, rfl, ?_⟩
  obtain ⟨a, md, h4, h5⟩ := c47_reader rd cfg (recordVisitor Cow) h3
  obtain ⟨hx, hy⟩ := recordVisitor_all h5 h4
  simp only at hx hy ⊢
  cases c with
  | borrowed d =>
    exfalso
    have h := Cow.splitAt_borrowed h2 rfl
    rw [h1, List.append_assoc, List.take_left, List.drop_left] at h
    obtain ⟨⟨xa, hxa⟩, ya, hya⟩ := (c41_kept _ x y _ h2).1 d rfl
    obtain ⟨yt, hyt⟩ := (c41_truncate y new.length).2.mp ⟨ya, hya⟩
    have e1 := hx _ hxa
    have e2 := hy _ hyt
    have e3 := (c41_truncate y new.length).1
    rw [h.2, List.take_left, hyt, e2] at e3
    have e4 := h.1
    rw [hxa, e1] at e4
    apply hne
    rw [← e3, ← e4]; rfl
  | owned d =>
    change d = old ++ new ++ pad at h1
    subst h1
    rw [List.append_assoc] at h2
    unfold Cow.splitAt at h2
    simp only [List.length_eq_zero_iff] at h2
    rw [(c41_truncate y new.length).1]
    split at h2
    · next h => subst h; cases h2; rw [if_pos rfl]; simp [Cow.data]
    · next h =>
      rw [if_neg h]
      split at h2
      · next h' =>
        have : new ++ pad = [] := by
          rw [List.length_append (as := old)] at h'
          exact List.length_eq_zero_iff.mp (by omega)
        cases h2
        rw [if_pos this, (List.append_eq_nil_iff.mp this).1]
        rfl
      · next h' =>
        rw [if_pos (by rw [List.length_append (as := old)]; omega)] at h2
        cases h2
        rw [if_neg (by intro hh; apply h'; rw [hh, List.append_nil])]
        simp only [Cow.data, List.take_left, List.drop_left]

/-- A poke of four bytes to nothing, without padding. -/
example : (KRecord.mk 0 (.textPoke 1 [1, 2, 3, 4] [] []) ⟨1, 2, 3, 4, 5, 6, 7, 8⟩).size .little demoCfg < 65536 ∧
    (match (P.parseRecord (Parser.new (⟨4096, (KRecord.mk 0 (.textPoke 1 [1, 2, 3, 4] [] []) ⟨1, 2, 3, 4, 5, 6, 7, 8⟩).enc
        .little demoCfg⟩ : Slice) demoCfg)).res with
      | .ok (.textPoke tp) => tp.oldBytes.data == [1, 2, 3, 4] && tp.newBytes.data == []
      | _ => false) = true ∧
    (match (P.parseRecord (Parser.new (⟨[], [.data ((KRecord.mk 0 (.textPoke 1 [1, 2, 3, 4] [] []) ⟨1, 2, 3, 4, 5, 6, 7, 8⟩).enc
        .little demoCfg)]⟩ : BufReader) demoCfg)).res with
      | .ok (.textPoke tp) => tp.oldBytes.data == [] && tp.newBytes.data == []
      | _ => false) = true := by decide +kernel

end Perf
