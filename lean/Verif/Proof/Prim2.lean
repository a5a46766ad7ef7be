import Verif.Proof.Prim
/-!
# `parse_rest` and `split_at` on a lawful buffer
-/
namespace Perf
variable {β : Type} [ParseBuf β] [Lawful β] {α γ T : Type}

/-! ## `parse_rest` -/

omit [Lawful β] in
theorem P.chunkResult_ok {p q : Parser β} {c : Chunk} (h : P.chunk p = ⟨.ok c, q, []⟩) :
    P.chunkResult p = ⟨.ok (.ok c), q, []⟩ := by
  unfold P.chunk at h
  unfold P.chunkResult
  simp only [Out.mk.injEq] at h
  obtain ⟨h1, h2, _⟩ := h
  simp only [h1, h2]

omit [Lawful β] in
theorem P.chunkResult_err {p q : Parser β} {e : ParseError} (h : P.chunk p = ⟨.error (.err e), q, []⟩) :
    P.chunkResult p = ⟨.ok (.error e), q, []⟩ := by
  unfold P.chunk at h
  unfold P.chunkResult
  simp only [Out.mk.injEq] at h
  obtain ⟨h1, h2, _⟩ := h
  simp only [h1, h2]

theorem Chunk.toCow_data (c : Chunk) : c.toCow.data = c.data := by
  unfold Chunk.toCow; split <;> rfl

omit [ParseBuf β] [Lawful β] in
/-- `to_cow` copies at most the chunk. -/
theorem P.toCow_run (c : Chunk) (p : Parser β) : ∃ l, (∀ n ∈ l, n ≤ c.data.length) ∧
    P.toCow c p = ⟨.ok c.toCow, p, l⟩ := by
  unfold P.toCow
  cases c.loc with
  | temporary => exact ⟨[c.data.length], by simp, rfl⟩
  | external a => exact ⟨[], by simp, rfl⟩

/-- `o` took everything, or failed with the error that ends the stream. -/
def TakesRest (p : Parser β) (f : Flat) (o : Out β (Cow Byte)) (d : List Byte) : Prop :=
  if f.s.fin.kind = .eof then
    ∃ c, o.res = .ok c ∧ c.data = d ∧ (EofLaw β → RepP o.st (f.adv f.s.bytes.length) ∧ HintMono p o.st)
  else o.res = .error (.err f.s.fin)

theorem P.restLoop_takes : ∀ (fuel : Nat) (acc : Cow Byte) (p : Parser β) (f : Flat), RepP p f →
    ParseBuf.steps p.data < fuel →
    TakesRest p f (P.restLoop fuel acc p) (acc.data ++ f.s.bytes) ∧ (P.restLoop fuel acc p).log = [] := by
  intro fuel
  induction fuel with
  | zero => intro acc p f h hs; omega
  | succ fuel ih =>
    intro acc p f h hs
    unfold P.restLoop TakesRest
    by_cases he : f.s.bytes = []
    · obtain ⟨q, hq⟩ := P.chunk_none h he
      rw [P.bind_nil (P.chunkResult_err hq)]
      by_cases hk : f.s.fin.kind = .eof
      · simp only [if_pos hk]
        refine ⟨⟨acc, rfl, by simp [he], fun hlaw => ?_⟩, rfl⟩
        obtain ⟨q', hq', h1, h2⟩ := P.chunk_eof hlaw h he hk
        have : q' = q := congrArg Out.st (hq'.symm.trans hq)
        subst this
        rw [he, List.length_nil, Flat.adv_zero]
        exact ⟨h1, h2⟩
      · simp only [if_neg hk]
        exact ⟨rfl, rfl⟩
    · obtain ⟨c, q, hq, hcne, hpre, _, hrep, hst, hm, hadv⟩ := P.chunk_some h he
      rw [P.bind_nil (P.chunkResult_ok hq)]
      obtain ⟨q', hq', hrep', hst', hm'⟩ := hadv c.data.length (Nat.le_refl _)
      simp only
      rw [P.bind_nil hq']
      have hpos : 0 < c.data.length := List.length_pos_iff.mpr hcne
      have := ih (.owned (acc.data ++ c.data)) q' _ hrep' (by omega)
      refine ⟨?_, this.2⟩
      have h3 := this.1
      unfold TakesRest at h3
      simp only [Flat.adv_fin, Flat.adv_bytes, List.length_drop, Flat.adv_adv] at h3
      obtain ⟨t, ht⟩ := hpre
      have hlen : c.data.length ≤ f.s.bytes.length := by rw [← ht]; simp
      have hd : (Cow.owned (acc.data ++ c.data)).data ++ f.s.bytes.drop c.data.length = acc.data ++ f.s.bytes := by
        rw [← ht]; simp [Cow.data]
      rw [hd, show c.data.length + (f.s.bytes.length - c.data.length) = f.s.bytes.length by omega] at h3
      by_cases hk : f.s.fin.kind = .eof
      · rw [if_pos hk] at h3 ⊢
        obtain ⟨x, h4, h5, h6⟩ := h3
        exact ⟨x, h4, h5, fun hlaw => ⟨(h6 hlaw).1, (hm.trans hm').trans (h6 hlaw).2⟩⟩
      · rw [if_neg hk] at h3 ⊢
        exact h3

theorem P.rest_takes {p : Parser β} {f : Flat} (h : RepP p f) :
    (if f.s.bytes = [] then (P.rest p).res = .error (.err f.s.fin) else TakesRest p f (P.rest p) f.s.bytes) ∧
    ∀ B, f.s.bytes.length ≤ B → LogLe (P.rest p).log B := by
  unfold P.rest
  by_cases he : f.s.bytes = []
  · obtain ⟨q, hq⟩ := P.chunk_none h he
    rw [if_pos he, P.bind_err hq]
    exact ⟨rfl, fun B _ => LogLe.nil B⟩
  · rw [if_neg he]
    obtain ⟨c, q, hq, hcne, hpre, _, hrep, hst, hm, hadv⟩ := P.chunk_some h he
    rw [P.bind_nil hq]
    obtain ⟨q', hq', hrep', hst', hm'⟩ := hadv c.data.length (Nat.le_refl _)
    obtain ⟨l, hl, ha⟩ := P.toCow_run c q
    rw [← Chunk.toCow_data] at hq'
    have hlen := hpre.length_le
    rw [P.bind_ok ha, P.bind_nil hq', P.bind_nil (P.fuel_run q')]
    have := P.restLoop_takes (ParseBuf.steps q'.data + 1) c.toCow q' _ hrep' (by omega)
    rw [this.2]
    refine ⟨?_, fun B hB => LogLe.append (fun n hn => by have := hl n hn; omega) (LogLe.nil B)⟩
    have h3 := this.1
    unfold TakesRest at h3 ⊢
    simp only [Flat.adv_fin, Flat.adv_bytes, List.length_drop, Flat.adv_adv] at h3 ⊢
    obtain ⟨t, ht⟩ := hpre
    have hd : c.toCow.data ++ f.s.bytes.drop c.data.length = f.s.bytes := by
      rw [Chunk.toCow_data, ← ht]; simp
    rw [hd, show c.data.length + (f.s.bytes.length - c.data.length) = f.s.bytes.length by omega] at h3
    by_cases hk : f.s.fin.kind = .eof
    · rw [if_pos hk] at h3 ⊢
      obtain ⟨x, h4, h5, h6⟩ := h3
      exact ⟨x, h4, h5, fun hlaw => ⟨(h6 hlaw).1, (hm.trans hm').trans (h6 hlaw).2⟩⟩
    · rw [if_neg hk] at h3 ⊢
      exact h3

/-! ## `split_at` -/

theorem chunkBytes_append (a b : List Chunk) : chunkBytes (a ++ b) = chunkBytes a + chunkBytes b := by
  rw [← chunksData_length, ← chunksData_length, ← chunksData_length, chunksData_append, List.length_append]

theorem ChunksAl.snoc : ∀ (cs : List Chunk) (a : Al) (c : Chunk), ChunksAl a cs →
    (a.add (chunkBytes cs)).Allows c.loc → ChunksAl a (cs ++ [c]) := by
  intro cs
  induction cs with
  | nil => intro a c _ h; exact ⟨by simpa [chunkBytes, Al.add_zero] using h, trivial⟩
  | cons d ds ih =>
    intro a c h h'
    refine ⟨h.1, ih _ c h.2 ?_⟩
    rw [Al.add_add]
    exact h'

/-- The pieces collected so far: nonempty, lying where they should, and holding `d`. -/
structure Pieces (al : Al) (cs : List Chunk) (d : List Byte) : Prop where
  nonempty : ∀ c ∈ cs, c.data ≠ []
  al : ChunksAl al cs
  data : chunksData cs = d

theorem Chunk.truncate_data (c : Chunk) (len : Nat) : (c.truncate len).data = c.data.take (min c.data.length len) := by
  unfold Chunk.truncate
  split
  · rename_i hle; rw [Nat.min_eq_left hle, List.take_length]
  · rename_i hle; rw [Nat.min_eq_right (by omega)]

theorem Chunk.truncate_loc (c : Chunk) (len : Nat) : (c.truncate len).loc = c.loc := by
  unfold Chunk.truncate; split <;> rfl

theorem P.cursorLoop_takes : ∀ (fuel len : Nat) (acc : List Chunk) (p : Parser β) (f : Flat) (al : Al) (d : List Byte),
    RepP p f → ParseBuf.steps p.data < fuel → Pieces al acc.reverse d → al.add d.length = f.s.al →
    (if len ≤ f.s.bytes.length then
      ∃ out, (P.cursorLoop fuel len acc p).res = .ok out ∧ Pieces al out.reverse (d ++ f.s.bytes.take len) ∧
        RepP (P.cursorLoop fuel len acc p).st (f.adv len) ∧ HintMono p (P.cursorLoop fuel len acc p).st
     else (P.cursorLoop fuel len acc p).res = .error (.err f.s.fin)) ∧
    (∀ n ∈ (P.cursorLoop fuel len acc p).log, n ≤ f.s.bytes.length) := by
  intro fuel
  induction fuel with
  | zero => intro len acc p f al d h hs; omega
  | succ fuel ih =>
    intro len acc p f al d h hs hp hal
    unfold P.cursorLoop
    by_cases hl : len = 0
    · subst hl
      simp only [if_pos, Nat.zero_le, P.pure_run, List.take_zero, List.append_nil, Flat.adv_zero]
      exact ⟨⟨acc, rfl, hp, h, .refl _⟩, by simp⟩
    · simp only [if_neg hl]
      by_cases he : f.s.bytes = []
      · obtain ⟨q, hq⟩ := P.chunk_none h he
        rw [P.bind_err hq, if_neg (by simp [he]; omega)]
        exact ⟨rfl, by simp⟩
      · obtain ⟨c, q, hq, hcne, hpre, hcal, hrep, hst, hm, hadv⟩ := P.chunk_some h he
        rw [P.bind_nil hq]
        obtain ⟨q', hq', hrep', hst', hm'⟩ := hadv (min c.data.length len) (Nat.min_le_left _ _)
        have hpos : 0 < c.data.length := List.length_pos_iff.mpr hcne
        have htl : (c.truncate len).data.length = min c.data.length len := by
          rw [Chunk.truncate_data, List.length_take]; omega
        have hlen := hpre.length_le
        have ha : ∃ l, (∀ n ∈ l, n ≤ f.s.bytes.length) ∧
            P.pushChunk (c.truncate len) acc q = ⟨.ok (c.truncate len :: acc), q, l⟩ := by
          obtain ⟨l, hl, hr⟩ := P.toCow_run (c.truncate len) q
          refine ⟨l, fun n hn => by have := hl n hn; omega, ?_⟩
          unfold P.pushChunk
          rw [P.ite_pos (by omega), P.bind_ok hr]
          simp [P.pure_run]
        obtain ⟨l, hl', ha⟩ := ha
        simp only [htl]
        rw [P.bind_ok ha, P.bind_nil hq']
        have hdata : (c.truncate len).data = f.s.bytes.take (min c.data.length len) := by
          rw [Chunk.truncate_data, List.take_eq_prefix hpre (Nat.min_le_left _ _)]
        have hp' : Pieces al (c.truncate len :: acc).reverse (d ++ f.s.bytes.take (min c.data.length len)) := by
          rw [List.reverse_cons]
          refine ⟨?_, ChunksAl.snoc _ _ _ hp.al ?_, ?_⟩
          · intro x hx
            rcases List.mem_append.mp hx with h1 | h1
            · exact hp.nonempty x h1
            · simp only [List.mem_singleton] at h1
              subst h1
              intro h2
              rw [h2] at htl
              simp at htl; omega
          · rw [Chunk.truncate_loc, ← chunksData_length, hp.data, hal]; exact hcal
          · rw [chunksData_append, hp.data]
            simp [chunksData, hdata]
        have := ih (len - min c.data.length len) (c.truncate len :: acc) q' _ al _ hrep' (by omega) hp' (by
          rw [List.length_append, ← Al.add_add, hal, Flat.adv_al, List.length_take]
          congr 1; omega)
        simp only [Flat.adv_bytes, List.length_drop, Flat.adv_adv, Flat.adv_fin] at this
        refine ⟨?_, ?_⟩
        · have h3 := this.1
          by_cases hle : len ≤ f.s.bytes.length
          · rw [if_pos hle]
            rw [if_pos (by omega), List.append_assoc, List.take_split _ (Nat.min_le_right _ _),
              show min c.data.length len + (len - min c.data.length len) = len by omega] at h3
            obtain ⟨out, h4, h5, h6, h7⟩ := h3
            exact ⟨out, h4, h5, h6, (hm.trans hm').trans h7⟩
          · rw [if_neg hle]
            rw [if_neg (by omega)] at h3
            exact h3
        · intro n hn
          rcases List.mem_append.mp hn with h1 | h1
          · exact hl' n h1
          · have := this.2 n h1
            omega

/-- What `split_at` leaves: a fresh cursor over the next `len` bytes. -/
structure SplitOff (f : Flat) (len : Nat) (c : Parser Cursor) : Prop where
  offset : c.data.buf.offset = 0
  length : c.data.buf.len = len
  pieces : Pieces f.s.al c.data.buf.chunks (f.s.bytes.take len)
  rep : RepP c ⟨⟨f.s.bytes.take len, f.s.al, .eof⟩, 0, f.cfg⟩

theorem P.splitAt_takes {p : Parser β} {f : Flat} (h : RepP p f) {len : Nat} (hlim : len < usizeLimit) :
    (if len ≤ f.s.bytes.length then
      ∃ c, (P.splitAt len p).res = .ok c ∧ SplitOff f len c ∧ RepP (P.splitAt len p).st (f.adv len) ∧
        HintMono p (P.splitAt len p).st
     else (P.splitAt len p).res = .error (.err f.s.fin)) ∧
    (∀ n ∈ (P.splitAt len p).log, n ≤ f.s.bytes.length) := by
  have hc := P.cursorLoop_takes (ParseBuf.steps p.data + 1) len [] p f f.s.al [] h (by omega)
    ⟨by simp, trivial, rfl⟩ (by simp [Al.add_zero])
  unfold P.splitAt P.newCursor
  by_cases hle : len ≤ f.s.bytes.length
  · rw [if_pos hle] at hc ⊢
    obtain ⟨⟨out, h1, h2, h3, h4⟩, h5⟩ := hc
    have hn : (P.newCursor len : P β Cursor) p = ⟨.ok ⟨out.reverse, 0, len⟩, (P.cursorLoop (ParseBuf.steps p.data + 1) len [] p).st,
        (P.cursorLoop (ParseBuf.steps p.data + 1) len [] p).log⟩ := by
      unfold P.newCursor
      rw [P.bind_nil (P.fuel_run p), P.bind_ok (P.run_eq _ h1)]
      simp [P.pure_run]
    unfold P.newCursor at hn
    rw [P.bind_ok hn, P.bind_nil (P.config_run _)]
    simp only [P.pure_run, List.append_nil]
    refine ⟨⟨_, rfl, ?_, h3, h4⟩, h5⟩
    simp only [List.nil_append] at h2
    refine ⟨rfl, rfl, h2, ⟨?_, rfl, h3.cfg, h.wf⟩⟩
    have hb : chunkBytes out.reverse ≤ len := by
      rw [← chunksData_length, h2.data, List.length_take]; omega
    have := Cursor.Rep.fresh h2.nonempty hb hlim h2.al
    rw [h2.data] at this
    exact this
  · rw [if_neg hle] at hc ⊢
    have hn : (P.newCursor len : P β Cursor) p = ⟨.error (.err f.s.fin), (P.cursorLoop (ParseBuf.steps p.data + 1) len [] p).st,
        (P.cursorLoop (ParseBuf.steps p.data + 1) len [] p).log⟩ := by
      unfold P.newCursor
      rw [P.bind_nil (P.fuel_run p), P.bind_err (P.run_eq _ hc.1)]
    unfold P.newCursor at hn
    rw [P.bind_err hn]
    exact ⟨rfl, hc.2⟩

end Perf
