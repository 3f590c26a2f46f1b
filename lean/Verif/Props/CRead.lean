/-
C81: what a C program reads of a well-formed conversation is what was sent.
-/
import Verif.Spec.CRead
import Verif.Lemmas.ReqMessage
import Verif.Props.Dialogue
import Verif.Lemmas.Flags
import Verif.Props.UriSplit

namespace Props

open Model Spec

attribute [-instance] instDecidableEqNocase

/-! Memory -/

theorem signed_small {n : Nat} (h : n < 2 ^ 63) : signed n = n := if_pos h

theorem readMemory_all {b : Bytes} (h : b.length < 2 ^ 63) : readMemory (some b) (signed b.length) = some b := by
  rw [signed_small h]
  unfold readMemory
  dsimp only
  rw [if_pos ⟨by omega, by omega⟩]
  simp

theorem readPiece_data {b : Bytes} (h : b.length < 2 ^ 63) : readPiece { data := some b } = b := by
  have h1 : dataData (some { data := some b }) = some b := by simp [dataData, PData.unconsumed]
  have h2 : dataLen (some { data := some b }) = signed b.length := by simp [dataLen, PData.len, PData.asSlice]
  unfold readPiece
  rw [h1, h2, readMemory_all h]
  rfl

/-! The table -/

theorem le_sum {n : Nat} {l : List Nat} (h : n ∈ l) : n ≤ l.sum := by
  induction l with
  | nil => cases h
  | cons m l ih =>
    rw [List.sum_cons]
    rcases List.mem_cons.1 h with rfl | h
    · omega
    · have := ih h; omega

theorem joinComma_length : ∀ l : List Bytes, (joinComma l).length ≤ (l.map fun v => v.length + 2).sum
  | [] => by simp [joinComma]
  | [v] => by simp [joinComma]
  | v :: w :: l => by
    rw [joinComma.eq_3 _ _ (by simp)]
    have := joinComma_length (w :: l)
    simp only [List.map_cons, List.sum_cons, List.length_append] at this ⊢
    have h2 : (b! ", ").length = 2 := by decide
    omega

theorem block_length : ∀ hs : List HeaderLine, (hs.map fun h => h.name.length + h.value.length + 3).sum ≤ (renderBlock hs).length
  | [] => by simp [renderBlock]
  | h :: hs => by
    have := block_length hs
    simp only [List.map_cons, List.sum_cons, renderBlock, HeaderLine.render, List.length_append, List.length_cons,
      List.length_nil] at this ⊢
    omega

/-- Going through the indices is going through the list. -/
theorem range_filter {α β : Type} (f : Nat → α) (p : α → Bool) (g : α → β) : ∀ (l : List α),
    (∀ i (h : i < l.length), f i = l[i]) →
    ((List.range l.length).filter fun j => p (f j)).map (fun j => g (f j)) = (l.filter p).map g := by
  intro l h
  have h1 : l = (List.range l.length).map f := by
    apply List.ext_getElem
    · simp
    · intro i h1 h2
      simp [h i h1]
  conv_rhs => rw [h1]
  rw [List.filter_map, List.map_map]
  rfl

theorem field_fieldsOf (hs : List HeaderLine) (i : Nat) (h : i < hs.length) :
    field (fieldsOf hs) i = { name := hs[i].name, value := hs[i].value } := by
  unfold field fieldsOf List.getD
  simp [List.getElem?_eq_getElem h]

theorem recorded_few {fs : List Header} {i : Nat} (h : i < 64) : Recorded fs i := by
  right
  unfold extras
  exact Nat.lt_of_le_of_lt (List.countP_le_length) (by simpa using h)

open Classical in
/-- The value that is stored for a field, if there are few of them. -/
theorem stored_value {hs : List HeaderLine} (hn : hs.length ≤ 64) {i : Nat} (hi : i < hs.length) (m : Flags) :
    (stored m (fieldsOf hs) i).value =
      if EqNocase hs[i].name (b! "Content-Length") then hs[i].value else joinComma (valuesOf hs hs[i].name) := by
  have hl : (fieldsOf hs).length = hs.length := by simp [fieldsOf]
  have h1 := field_fieldsOf hs i hi
  unfold stored
  dsimp only
  rw [h1]
  dsimp only
  congr 2
  rw [hl]
  have h2 : (List.range hs.length).filter (fun j => decide (Same (fieldsOf hs) j i ∧ Recorded (fieldsOf hs) j)) =
      (List.range hs.length).filter (fun j => decide (EqNocase (field (fieldsOf hs) j).name hs[i].name)) := by
    apply List.filter_congr
    intro j hj
    have hj : j < hs.length := List.mem_range.1 hj
    have h3 : Recorded (fieldsOf hs) j := recorded_few (by omega)
    have h4 : Spec.Same (fieldsOf hs) j i ↔ EqNocase (field (fieldsOf hs) j).name hs[i].name := by
      unfold Spec.Same
      rw [h1]
    simp [h3, h4]
  rw [h2]
  unfold valuesOf
  have h3 := range_filter (field (fieldsOf hs)) (fun f => decide (EqNocase f.name hs[i].name)) Header.value (fieldsOf hs)
    (by
      intro j hj
      unfold field List.getD
      simp [List.getElem?_eq_getElem hj])
  rw [hl] at h3
  rw [h3]
  unfold fieldsOf
  rw [List.filter_map, List.map_map]
  rfl

theorem values_length (hs : List HeaderLine) (name : Bytes) :
    ((valuesOf hs name).map fun v => v.length + 2).sum ≤ (renderBlock hs).length := by
  classical
  refine Nat.le_trans ?_ (block_length hs)
  unfold valuesOf
  induction hs with
  | nil => simp
  | cons h hs ih =>
    simp only [List.filter_cons, List.map_cons, List.sum_cons]
    split
    · simp only [List.map_cons, List.sum_cons]; omega
    · omega

/-- Names and values that are stored are not longer than what was sent. -/
theorem stored_short {hs : List HeaderLine} (hn : hs.length ≤ 64) (hb : (renderBlock hs).length < 2 ^ 63) (m : Flags) :
    ∀ h ∈ storedTable m (fieldsOf hs), h.name.length < 2 ^ 63 ∧ h.value.length < 2 ^ 63 := by
  intro h hm
  obtain ⟨i, hi, -, rfl⟩ := mem_storedTable hm
  have hi : i < hs.length := by simpa [fieldsOf] using hi
  have h1 : hs[i].name.length + hs[i].value.length + 3 ≤ (renderBlock hs).length := by
    refine Nat.le_trans ?_ (block_length hs)
    exact le_sum (List.mem_map.2 ⟨hs[i], List.getElem_mem hi, rfl⟩)
  constructor
  · show (field (fieldsOf hs) i).name.length < _
    rw [field_fieldsOf hs i hi]
    dsimp only
    omega
  · rw [stored_value hn hi]
    split
    · omega
    · have h2 := joinComma_length (valuesOf hs hs[i].name)
      have h3 := values_length hs hs[i].name
      omega

/-- The loop over a table reads the table. -/
theorem readFields_table {hs : Headers} {fieldAt : Nat → Ptr Header} {size : Int} (ha : ∀ i, fieldAt i = hs[i]?)
    (hl : hs.length < 2 ^ 63) (hz : size = signed hs.length)
    (hh : ∀ h ∈ hs, h.name.length < 2 ^ 63 ∧ h.value.length < 2 ^ 63) :
    readFields size fieldAt = hs.map fun h => (some h.name, some h.value) := by
  subst hz
  unfold readFields
  rw [signed_small hl]
  apply List.ext_getElem
  · simp
  · intro i h1 h2
    have hi : i < hs.length := by simpa using h1
    obtain ⟨h3, h4⟩ := hh _ (List.getElem_mem hi)
    simp only [List.getElem_map, List.getElem_range, ha, List.getElem?_eq_getElem hi]
    have e1 : headerName (some hs[i]) = some hs[i].name := rfl
    have e2 : headerNameLen (some hs[i]) = signed hs[i].name.length := rfl
    have e3 : headerValue (some hs[i]) = some hs[i].value := rfl
    have e4 : headerValueLen (some hs[i]) = signed hs[i].value.length := rfl
    rw [e1, e2, e3, e4, readMemory_all h3, readMemory_all h4]

theorem cStr_of (name rest : Bytes) (h : 0 ∉ name) : cStr (some (name ++ 0 :: rest)) = .ok name := by
  have h1 : (name ++ 0 :: rest).takeWhile (· != 0) = name := by
    rw [List.takeWhile_append_of_pos (by
      intro c hc
      simp only [bne_iff_ne, ne_eq]
      rintro rfl
      exact h hc)]
    simp
  unfold cStr
  dsimp only
  rw [if_pos (by simp), h1]

/-- Fields with names that differ in case only have the same values. -/
theorem valuesOf_congr {hs : List HeaderLine} {a b : Bytes} (h : EqNocase a b) : valuesOf hs a = valuesOf hs b := by
  classical
  unfold valuesOf
  congr 1
  apply List.filter_congr
  intro x _
  have : EqNocase x.name a ↔ EqNocase x.name b :=
    ⟨fun h' => eqNocase_trans h' h, fun h' => eqNocase_trans h' (eqNocase_symm h)⟩
  simp [this]

open Classical in
/-- Looking up a name that a field has. -/
theorem lookup_value {hs : List HeaderLine} (hw : ∀ h ∈ hs, h.WellFormed) (hn : hs.length ≤ 64) {key : Bytes} {v : Bytes}
    {vs : List Bytes} (hv : valuesOf hs key = v :: vs) (m : Flags) :
    ∃ x, Headers.getNocaseNozero (storedTable m (fieldsOf hs)) key = some x ∧ EqNocase x.name key ∧
      x.value = if EqNocase key (b! "Content-Length") then v else joinComma (v :: vs) := by
  obtain ⟨h, hm, he⟩ : ∃ h ∈ hs, EqNocase h.name key := by
    have : v ∈ valuesOf hs key := by rw [hv]; simp
    unfold valuesOf at this
    obtain ⟨h, hm, -⟩ := List.mem_map.1 this
    rw [List.mem_filter, decide_eq_true_eq] at hm
    exact ⟨h, hm.1, hm.2⟩
  obtain ⟨x, -, hx, -⟩ := lookup_some hw hm he m
  have h1 := C04_headers_get_nocase_nozero (storedTable m (fieldsOf hs)) key
  rw [hx] at h1
  obtain ⟨a, b, h2, h3, -⟩ := h1
  obtain ⟨i, hi, hb, rfl⟩ := mem_storedTable (x := x) (by rw [h2]; simp)
  have hi : i < hs.length := by simpa [fieldsOf] using hi
  have hf := field_fieldsOf hs i hi
  have hname : (stored m (fieldsOf hs) i).name = hs[i].name := by
    show (field (fieldsOf hs) i).name = _
    rw [hf]
  rw [hname, nameMatches_token (hw _ (List.getElem_mem hi)).token] at h3
  refine ⟨_, hx, by rw [hname]; exact h3, ?_⟩
  rw [stored_value hn hi]
  have hc : EqNocase hs[i].name (b! "Content-Length") ↔ EqNocase key (b! "Content-Length") :=
    ⟨fun h => eqNocase_trans (eqNocase_symm h3) h, fun h => eqNocase_trans h3 h⟩
  rw [valuesOf_congr h3, hv]
  simp only [hc]
  congr 1
  have hfirst : valuesOf (hs.take i) key = [] := by
    unfold valuesOf
    rw [List.map_eq_nil_iff, List.filter_eq_nil_iff]
    intro y hy hk
    rw [decide_eq_true_eq] at hk
    obtain ⟨j, hj, rfl⟩ := List.getElem_of_mem hy
    have hji : j < i := by
      rw [List.length_take] at hj
      omega
    unfold before at hb
    rw [List.countP_eq_zero] at hb
    apply hb j (List.mem_range.2 hji)
    rw [decide_eq_true_eq]
    unfold Spec.Same
    rw [hf, field_fieldsOf hs j (by omega)]
    rw [List.getElem_take] at hk
    exact eqNocase_trans hk (eqNocase_symm h3)
  have hsplit : hs = hs.take i ++ hs[i] :: hs.drop (i + 1) := by
    rw [List.getElem_cons_drop, List.take_append_drop]
  have happ : valuesOf hs key = valuesOf (hs.take i) key ++ valuesOf (hs[i] :: hs.drop (i + 1)) key := by
    conv_lhs => rw [hsplit]
    unfold valuesOf
    rw [List.filter_append, List.map_append]
  rw [hv, hfirst, List.nil_append] at happ
  unfold valuesOf at happ
  rw [List.filter_cons_of_pos (by simpa using h3), List.map_cons] at happ
  exact (List.cons.inj happ).1.symm

theorem finds_table {hs : List HeaderLine} (hw : ∀ h ∈ hs, h.WellFormed) (hn : hs.length ≤ 64) (m : Flags)
    {look : Ptr Bytes → Except Fault (Ptr Header)}
    (hl : ∀ key, look key = headersGet (some (storedTable m (fieldsOf hs))) key) : Finds look hs := by
  classical
  refine ⟨by rw [hl]; rfl, fun name rest h0 => ⟨fun hv => ?_, fun v vs hv => ?_⟩⟩
  · rw [hl]
    unfold headersGet
    dsimp only
    rw [cStr_of name rest h0]
    dsimp only
    rw [lookup_none hw]
    intro h hm he
    have : h.value ∈ valuesOf hs name := by
      unfold valuesOf
      exact List.mem_map.2 ⟨h, List.mem_filter.2 ⟨hm, by simpa using he⟩, rfl⟩
    rw [hv] at this
    cases this
  · obtain ⟨x, h1, h2, h3⟩ := lookup_value hw hn hv m
    refine ⟨x, ?_, h2, ?_⟩
    · rw [hl]
      unfold headersGet
      dsimp only
      rw [cStr_of name rest h0]
      dsimp only
      rw [h1]
    · show some x.value = _
      rw [h3]

/-! One transaction -/

theorem told (o : Option Nat) (h : ∀ n, o = some n → n < 2 ^ 63) : (o.map signed).getD (-1) = orMinusOne o := by
  cases o with
  | none => rfl
  | some n => exact signed_small (h n rfl)

theorem table_length (m : Flags) (fs : List Header) : (storedTable m fs).length ≤ fs.length := by
  unfold storedTable
  rw [List.length_map]
  exact Nat.le_trans (List.length_filter_le _ _) (by simp)

theorem size_short {hs : List HeaderLine} {b : Body} (h : Modest hs b) : ∀ n, b.size = some n → n < 2 ^ 63 := by
  intro n hn
  cases b with
  | sized c => cases hn; exact h.length
  | absent => cases hn
  | chunked => cases hn

/-- C81. A transaction that records a well-formed request reads as this request. -/
theorem C81_request {t : Tx} {k : Nat} {r : Request} (h : Records t k r) (hw : ∀ x ∈ r.headers ++ r.body.trailer, x.WellFormed)
    (hm : Modest r.headers r.body) (hk : k < 2 ^ 63) : ReadsRequest (some t) k r := by
  have hl : t.requestHeaders.length < 2 ^ 63 := by
    rw [h.headers]
    have h1 := table_length HFlag.FIELD_REPEATED (fieldsOf (r.headers ++ r.body.trailer))
    have h2 : (fieldsOf (r.headers ++ r.body.trailer)).length = (r.headers ++ r.body.trailer).length := by simp [fieldsOf]
    have := hm.fields
    omega
  refine ⟨?_, h.line, h.method, h.methodNumber, h.uri, h.protocol, h.protocolNumber, ?_, ?_, ?_, fun _ => rfl, rfl, ?_,
    h.coding, ?_, ?_, h.progress⟩
  · show signed t.index = _
    rw [h.index, signed_small hk]
  · show boolToC t.isProtocol09 = 0
    rw [h.notProtocol09]; rfl
  · rw [← h.headers]
    refine readFields_table (fun _ => rfl) hl rfl ?_
    rw [h.headers]
    exact stored_short hm.fields hm.block _
  · intro i hi
    have hi : signed t.requestHeaders.length ≤ i := hi
    rw [signed_small hl] at hi
    show t.requestHeaders[i]? = none
    exact List.getElem?_eq_none (by omega)
  · refine finds_table hw hm.fields HFlag.FIELD_REPEATED fun key => ?_
    rw [← h.headers]
    rfl
  · show (t.requestContentLength.map signed).getD (-1) = _
    rw [h.contentLength]
    exact told _ (size_short hm)
  · show signed t.requestEntityLen = _
    rw [h.bodyLength, signed_small hm.length]

/-- C81. A transaction that records a well-formed response reads as having this response. -/
theorem C81_response {t : Tx} {r : Response} (h : RecordsResponse t r) (hw : ∀ x ∈ r.headers ++ r.body.trailer, x.WellFormed)
    (hm : Modest r.headers r.body) : ReadsResponse (some t) r := by
  have hl : t.responseHeaders.length < 2 ^ 63 := by
    rw [h.headers]
    have h1 := table_length HFlag.FIELD_REPEATED (fieldsOf (r.headers ++ r.body.trailer))
    have h2 : (fieldsOf (r.headers ++ r.body.trailer)).length = (r.headers ++ r.body.trailer).length := by simp [fieldsOf]
    have := hm.fields
    omega
  refine ⟨h.line, h.protocol, h.protocolNumber, h.status, ?_, h.message, ?_, ?_, fun _ => rfl, rfl, ?_, ?_, ?_, h.progress⟩
  · unfold TxNumber.call
    dsimp only
    rw [h.statusNumber]
  · rw [← h.headers]
    refine readFields_table (fun _ => rfl) hl rfl ?_
    rw [h.headers]
    exact stored_short hm.fields hm.block _
  · intro i hi
    have hi : signed t.responseHeaders.length ≤ i := hi
    rw [signed_small hl] at hi
    show t.responseHeaders[i]? = none
    exact List.getElem?_eq_none (by omega)
  · refine finds_table hw hm.fields HFlag.FIELD_REPEATED fun key => ?_
    rw [← h.headers]
    rfl
  · show (t.responseContentLength.map signed).getD (-1) = _
    rw [h.contentLength]
    exact told _ (size_short hm)
  · show signed t.responseEntityLen = _
    rw [h.bodyLength, signed_small hm.length]

/-- C81. A transaction that has not been answered reads as having no response. -/
theorem C81_unanswered {t : Tx} (h : Unanswered t) : ReadsNoResponse (some t) := by
  have h0 : ∀ {α : Type} (f : Tx → α), f (responseSide t) = f { index := 0 } := fun f => congrArg f h
  have e1 : t.responseLine = none := h0 (·.responseLine)
  have e2 : t.responseProtocol = none := h0 (·.responseProtocol)
  have e3 : t.responseStatus = none := h0 (·.responseStatus)
  have e4 : t.responseMessage = none := h0 (·.responseMessage)
  have e5 : t.responseContentType = none := h0 (·.responseContentType)
  have e6 : t.responseStatusNumber = .unknown := h0 (·.responseStatusNumber)
  have e7 : t.responseContentLength = none := h0 (·.responseContentLength)
  have e8 : t.responseMessageLen = 0 := h0 (·.responseMessageLen)
  have e9 : t.responseEntityLen = 0 := h0 (·.responseEntityLen)
  have e10 : t.responseHeaders = [] := h0 (·.responseHeaders)
  have e11 : t.responseProgress = .notStarted := h0 (·.responseProgress)
  refine ⟨?_, ?_, ?_, ?_, ?_, ⟨?_, ?_⟩, e11⟩
  · simp [TxText.call, e1, e2, e3, e4, e5]
  · simp [TxNumber.call, e6]
  · simp [TxNumber.call, e7]
  · simp [TxNumber.call, e8, signed]
  · simp [TxNumber.call, e9, signed]
  · simp [TxNumber.call, e10, signed]
  · simp [txResponseHeaderIndex, e10]

/-! The bodies -/

theorem collected_append (hook : DataHook) (k : Nat) (a b : List Event) :
    collected hook k (a ++ b) = collected hook k a ++ collected hook k b := by
  induction a with
  | nil => rfl
  | cons ev a ih =>
    cases ev with
    | tx h j => simpa [collected] using ih
    | data h j d => simp [collected, ih]

theorem collected_none {hook : DataHook} {k : Nat} {es : List Event} (h : ∀ d, Event.data hook k d ∉ es) :
    collected hook k es = [] := by
  induction es with
  | nil => rfl
  | cons ev es ih =>
    have ih := ih fun d hd => h d (List.mem_cons_of_mem _ hd)
    cases ev with
    | tx h' j => exact ih
    | data h' j d =>
      have : ¬ (h' = hook ∧ j = k) := by
        rintro ⟨rfl, rfl⟩
        exact h d (by simp)
      simp [collected, this, ih]

theorem collected_flatMap {α : Type} (hook : DataHook) (k : Nat) (f : α → List Event) (g : α → Bytes) (l : List α)
    (h : ∀ x ∈ l, collected hook k (f x) = g x) : collected hook k (l.flatMap f) = l.flatMap g := by
  induction l with
  | nil => rfl
  | cons x l ih =>
    rw [List.flatMap_cons, List.flatMap_cons, collected_append, h x (by simp), ih fun y hy => h y (by simp [hy])]

theorem mem_requestCallbacks {hook : DataHook} {j : Nat} {d : PData} : ∀ {rs : List Request} {a : Nat},
    Event.data hook j d ∈ requestCallbacks a rs → (a ≤ j ∧ j < a + rs.length) ∧ hook ≠ .responseBodyData
  | [], a, h => by cases h
  | r :: rs, a, h => by
    rw [requestCallbacks, List.mem_append] at h
    rcases h with h | h
    · have : j = a ∧ hook ≠ .responseBodyData := by
        unfold Request.callbacks Body.callbacks at h
        cases hb : r.body with
        | absent =>
          rw [hb] at h
          simp only [List.append_nil, List.mem_append, List.mem_cons, reduceCtorEq, Event.data.injEq, List.not_mem_nil,
            or_false, false_or] at h
          exact ⟨h.2.1, by rw [h.1]; decide⟩
        | sized c =>
          rw [hb] at h
          dsimp only at h
          split at h <;>
          · simp only [bodyCallbacks, List.nil_append, List.mem_append, List.mem_cons, reduceCtorEq, Event.data.injEq,
              List.not_mem_nil, or_false, false_or] at h
            grind
        | chunked cs l tr =>
          rw [hb] at h
          simp only [bodyCallbacks, List.mem_append, List.mem_cons, reduceCtorEq, Event.data.injEq, List.not_mem_nil,
            or_false, false_or, List.mem_flatMap] at h
          grind
      exact ⟨⟨by omega, by rw [List.length_cons]; omega⟩, this.2⟩
    · have := mem_requestCallbacks h
      exact ⟨⟨by omega, by rw [List.length_cons]; omega⟩, this.2⟩

theorem mem_responseCallbacks {hook : DataHook} {j : Nat} {d : PData} : ∀ {rs : List Response} {a : Nat},
    Event.data hook j d ∈ responseCallbacks a rs → (a ≤ j ∧ j < a + rs.length) ∧ hook ≠ .requestBodyData
  | [], a, h => by cases h
  | r :: rs, a, h => by
    rw [responseCallbacks, List.mem_append] at h
    rcases h with h | h
    · have : j = a ∧ hook ≠ .requestBodyData := by
        unfold Response.callbacks Body.answerCallbacks at h
        cases hb : r.body with
        | absent =>
          rw [hb] at h
          simp only [List.append_nil, List.mem_append, List.mem_cons, reduceCtorEq, Event.data.injEq, List.not_mem_nil,
            or_false, false_or] at h
          exact ⟨h.2.1, by rw [h.1]; decide⟩
        | sized c =>
          rw [hb] at h
          dsimp only at h
          split at h <;>
          · simp only [answerBodyCallbacks, List.append_nil, List.mem_append, List.mem_cons, reduceCtorEq,
              Event.data.injEq, List.not_mem_nil, or_false, false_or] at h
            grind
        | chunked cs l tr =>
          rw [hb] at h
          simp only [answerBodyCallbacks, List.mem_append, List.mem_cons, reduceCtorEq, Event.data.injEq, List.not_mem_nil,
            or_false, false_or, List.mem_flatMap] at h
          grind
      exact ⟨⟨by omega, by rw [List.length_cons]; omega⟩, this.2⟩
    · have := mem_responseCallbacks h
      exact ⟨⟨by omega, by rw [List.length_cons]; omega⟩, this.2⟩

theorem collected_request (r : Request) (k : Nat) (h : r.body.content.length < 2 ^ 63) :
    collected .requestBodyData k (r.callbacks k) = r.body.content := by
  have hb : collected .requestBodyData k (r.body.callbacks k) = r.body.content := by
    have hnone : readPiece { data := none } = [] := by decide
    have hx : ∀ d, collected .requestBodyData k (bodyCallbacks k d) = readPiece { data := d } := by
      intro d; simp [bodyCallbacks, collected]
    cases hb : r.body with
    | absent => rfl
    | sized c =>
      rw [hb] at h
      have h : c.length < 2 ^ 63 := h
      unfold Body.callbacks
      dsimp only
      rw [collected_append, hx, hnone, List.append_nil]
      split
      · next h0 => rw [h0]; rfl
      · rw [collected_append, hx, hx, hnone, List.append_nil, readPiece_data h]; rfl
    | chunked cs l tr =>
      rw [hb] at h
      have h : (carried cs).length < 2 ^ 63 := h
      unfold Body.callbacks
      dsimp only
      rw [collected_append, collected_append, hx, hnone, List.append_nil,
        collected_flatMap _ _ _ BodyChunk.data cs]
      · simp [collected, Body.content, carried]
      · intro c hc
        rw [hx, readPiece_data]
        refine Nat.lt_of_le_of_lt ?_ h
        unfold carried
        rw [List.length_flatMap]
        exact le_sum (List.mem_map.2 ⟨c, hc, rfl⟩)
  unfold Request.callbacks
  rw [collected_append, collected_append, hb]
  simp [collected]

theorem collected_response (r : Response) (k : Nat) (h : r.body.content.length < 2 ^ 63) :
    collected .responseBodyData k (r.callbacks k) = r.body.content := by
  have hb : collected .responseBodyData k (r.body.answerCallbacks k) = r.body.content := by
    have hx : ∀ d, collected .responseBodyData k (answerBodyCallbacks k d) = readPiece { data := some d } := by
      intro d; simp [answerBodyCallbacks, collected]
    cases hb : r.body with
    | absent => rfl
    | sized c =>
      rw [hb] at h
      have h : c.length < 2 ^ 63 := h
      unfold Body.answerCallbacks
      dsimp only
      split
      · next h0 => rw [h0]; rfl
      · rw [hx, readPiece_data h]; rfl
    | chunked cs l tr =>
      rw [hb] at h
      have h : (carried cs).length < 2 ^ 63 := h
      unfold Body.answerCallbacks
      dsimp only
      rw [collected_append, collected_flatMap _ _ _ BodyChunk.data cs]
      · simp [collected, Body.content, carried]
      · intro c hc
        rw [hx, readPiece_data]
        refine Nat.lt_of_le_of_lt ?_ h
        unfold carried
        rw [List.length_flatMap]
        exact le_sum (List.mem_map.2 ⟨c, hc, rfl⟩)
  unfold Response.callbacks
  rw [collected_append, collected_append, hb]
  simp [collected]

theorem collected_requests : ∀ (rs : List Request) (a i : Nat) (q : Request), rs[i]? = some q →
    q.body.content.length < 2 ^ 63 → collected .requestBodyData (a + i) (requestCallbacks a rs) = q.body.content
  | [], _, _, _, h, _ => by simp at h
  | r :: rs, a, 0, q, h, hl => by
    simp only [List.getElem?_cons_zero, Option.some.injEq] at h
    subst h
    rw [requestCallbacks, collected_append, Nat.add_zero, collected_request _ _ hl, collected_none, List.append_nil]
    intro d hd
    have := mem_requestCallbacks hd
    omega
  | r :: rs, a, i + 1, q, h, hl => by
    rw [List.getElem?_cons_succ] at h
    have ih := collected_requests rs (a + 1) i q h hl
    rw [requestCallbacks, collected_append, show a + (i + 1) = a + 1 + i by omega, ih, collected_none, List.nil_append]
    intro d hd
    have := mem_requestCallbacks (rs := [r]) (a := a) (by rw [requestCallbacks]; exact List.mem_append_left _ hd)
    simp at this
    omega

theorem collected_responses : ∀ (rs : List Response) (a i : Nat) (q : Response), rs[i]? = some q →
    q.body.content.length < 2 ^ 63 → collected .responseBodyData (a + i) (responseCallbacks a rs) = q.body.content
  | [], _, _, _, h, _ => by simp at h
  | r :: rs, a, 0, q, h, hl => by
    simp only [List.getElem?_cons_zero, Option.some.injEq] at h
    subst h
    rw [responseCallbacks, collected_append, Nat.add_zero, collected_response _ _ hl, collected_none, List.append_nil]
    intro d hd
    have := mem_responseCallbacks hd
    omega
  | r :: rs, a, i + 1, q, h, hl => by
    rw [List.getElem?_cons_succ] at h
    have ih := collected_responses rs (a + 1) i q h hl
    rw [responseCallbacks, collected_append, show a + (i + 1) = a + 1 + i by omega, ih, collected_none, List.nil_append]
    intro d hd
    have := mem_responseCallbacks (rs := [r]) (a := a) (by rw [responseCallbacks]; exact List.mem_append_left _ hd)
    simp at this
    omega

theorem conversation_earlier {k : Nat} : ∀ (turns : List Turn) (a b : Nat),
    (k < a → ∀ d, Event.data .requestBodyData k d ∉ conversation a b turns) ∧
    (k < b → ∀ d, Event.data .responseBodyData k d ∉ conversation a b turns)
  | [], _, _ => by simp [conversation]
  | .ask qs :: ts, a, b => by
    obtain ⟨h1, h2⟩ := conversation_earlier ts (a + qs.length) b
    refine ⟨fun hk d hd => ?_, fun hk d hd => ?_⟩ <;> rw [conversation, List.mem_append] at hd <;> rcases hd with hd | hd
    · have := mem_requestCallbacks hd; omega
    · exact h1 (by omega) d hd
    · exact (mem_requestCallbacks hd).2 rfl
    · exact h2 hk d hd
  | .answer rs :: ts, a, b => by
    obtain ⟨h1, h2⟩ := conversation_earlier ts a (b + rs.length)
    refine ⟨fun hk d hd => ?_, fun hk d hd => ?_⟩ <;> rw [conversation, List.mem_append] at hd <;> rcases hd with hd | hd
    · exact (mem_responseCallbacks hd).2 rfl
    · exact h1 hk d hd
    · have := mem_responseCallbacks hd; omega
    · exact h2 (by omega) d hd

theorem conversation_asked : ∀ (turns : List Turn) (a b i : Nat) (q : Request), (turns.flatMap Turn.asked)[i]? = some q →
    q.body.content.length < 2 ^ 63 → collected .requestBodyData (a + i) (conversation a b turns) = q.body.content
  | [], _, _, _, _, h, _ => by simp at h
  | .ask qs :: ts, a, b, i, q, h, hl => by
    rw [List.flatMap_cons, Turn.asked] at h
    rw [conversation, collected_append]
    by_cases hi : i < qs.length
    · rw [List.getElem?_append_left hi] at h
      rw [collected_requests qs a i q h hl, collected_none, List.append_nil]
      exact (conversation_earlier ts _ _).1 (by omega)
    · rw [List.getElem?_append_right (by omega)] at h
      have ih := conversation_asked ts (a + qs.length) b (i - qs.length) q h hl
      rw [show a + qs.length + (i - qs.length) = a + i by omega] at ih
      rw [ih, collected_none, List.nil_append]
      intro d hd
      have := mem_requestCallbacks hd
      omega
  | .answer rs :: ts, a, b, i, q, h, hl => by
    rw [List.flatMap_cons, Turn.asked, List.nil_append] at h
    rw [conversation, collected_append, conversation_asked ts a _ i q h hl, collected_none, List.nil_append]
    exact fun d hd => (mem_responseCallbacks hd).2 rfl

theorem conversation_answered : ∀ (turns : List Turn) (a b i : Nat) (r : Response),
    (turns.flatMap Turn.answered)[i]? = some r →
    r.body.content.length < 2 ^ 63 → collected .responseBodyData (b + i) (conversation a b turns) = r.body.content
  | [], _, _, _, _, h, _ => by simp at h
  | .answer qs :: ts, a, b, i, q, h, hl => by
    rw [List.flatMap_cons, Turn.answered] at h
    rw [conversation, collected_append]
    by_cases hi : i < qs.length
    · rw [List.getElem?_append_left hi] at h
      rw [collected_responses qs b i q h hl, collected_none, List.append_nil]
      exact (conversation_earlier ts _ _).2 (by omega)
    · rw [List.getElem?_append_right (by omega)] at h
      have ih := conversation_answered ts a (b + qs.length) (i - qs.length) q h hl
      rw [show b + qs.length + (i - qs.length) = b + i by omega] at ih
      rw [ih, collected_none, List.nil_append]
      intro d hd
      have := mem_responseCallbacks hd
      omega
  | .ask rs :: ts, a, b, i, q, h, hl => by
    rw [List.flatMap_cons, Turn.answered, List.nil_append] at h
    rw [conversation, collected_append, conversation_answered ts _ b i q h hl, collected_none, List.nil_append]
    exact fun d hd => (mem_requestCallbacks hd).2 rfl

/-! The conversation -/

/-- The calls in C do what the calls in Rust do. -/
theorem called {e : Env} (after : Bytes) : ∀ (turns : List Turn) (s : Conn),
    answersTo e (turns.map Turn.op) s = turns.map (fun _ => .ok (some .data)) →
    aloneCalls e (turns.map (Turn.call after)) s =
      .ok (turns.map (fun _ => .stream (some .data)), (turns.map Turn.op).foldl (Op.after e) s)
  | [], _, _ => rfl
  | t :: ts, s, h => by
    simp only [List.map_cons, answersTo, List.cons.injEq] at h
    have ih := called after ts _ h.2
    have h1 : (t.call after).run e s = .ok (.stream (some .data), t.op.after e s) := by
      have h2 := h.1
      unfold Op.after
      cases t with
      | ask qs =>
        simp only [Turn.call, ConnCall.run, chunkOfC, List.length_append, Nat.le_add_right, if_true, List.take_left']
        simp only [Turn.op] at h2 ⊢
        generalize Op.run e _ s = x at h2 ⊢
        obtain ⟨a, b⟩ := x
        cases h2
        rfl
      | answer qs =>
        simp only [Turn.call, ConnCall.run, chunkOfC, List.length_append, Nat.le_add_right, if_true, List.take_left']
        simp only [Turn.op] at h2 ⊢
        generalize Op.run e _ s = x at h2 ⊢
        obtain ⟨a, b⟩ := x
        cases h2
        rfl
    simp only [List.map_cons, List.foldl_cons, aloneCalls]
    rw [h1]
    dsimp only
    rw [ih]

theorem sensible_wellFormed {cfg : Config} : ∀ (turns : List Turn) (pending : List Request) (held : Nat),
    Sensible cfg pending held turns →
    (∀ q ∈ turns.flatMap Turn.asked, q.WellFormed) ∧ ∀ r ∈ turns.flatMap Turn.answered, ∃ head, r.WellFormed head
  | [], _, _, _ => by simp
  | .ask qs :: ts, pending, held, h => by
    obtain ⟨h1, h2⟩ := sensible_wellFormed ts _ _ h.2.2
    refine ⟨fun q hq => ?_, fun r hr => ?_⟩
    · rw [List.flatMap_cons, List.mem_append] at hq
      exact hq.elim (h.1.wellFormed q) (h1 q)
    · rw [List.flatMap_cons, List.mem_append] at hr
      exact hr.elim (fun h => by cases h) (h2 r)
  | .answer rs :: ts, pending, held, h => by
    obtain ⟨h1, h2⟩ := sensible_wellFormed ts _ _ h.2
    refine ⟨fun q hq => ?_, fun r hr => ?_⟩
    · rw [List.flatMap_cons, List.mem_append] at hq
      exact hq.elim (fun h => by cases h) (h1 q)
    · rw [List.flatMap_cons, List.mem_append] at hr
      refine hr.elim (fun hr => ?_) (h2 r)
      obtain ⟨i, hi, rfl⟩ := List.getElem_of_mem hr
      have hi' : i < rs.length := hi
      have hlt : i < pending.length := Nat.lt_of_lt_of_le hi' h.1.asked
      exact ⟨_, h.1.wellFormed i _ _ (List.getElem?_eq_getElem hlt) (List.getElem?_eq_getElem hi')⟩

theorem request_fields {r : Request} (h : r.WellFormed) : ∀ x ∈ r.headers ++ r.body.trailer, x.WellFormed := by
  intro x hx
  rw [List.mem_append] at hx
  rcases hx with hx | hx
  · exact h.headers x hx
  · have hf := h.framed
    unfold Request.Framed at hf
    cases hb : r.body with
    | absent => rw [hb] at hx; cases hx
    | sized c => rw [hb] at hx; cases hx
    | chunked cs l tr =>
      rw [hb] at hx hf
      exact hf.2.2.2.2 x hx

theorem response_fields {r : Response} {head : Bool} (h : r.WellFormed head) :
    ∀ x ∈ r.headers ++ r.body.trailer, x.WellFormed := by
  intro x hx
  rw [List.mem_append] at hx
  rcases hx with hx | hx
  · exact h.headers x hx
  · have hf := h.framed
    unfold Response.Framed at hf
    cases hb : r.body with
    | absent => rw [hb] at hx; cases hx
    | sized c => rw [hb] at hx; cases hx
    | chunked cs l tr =>
      rw [hb] at hx hf
      exact hf.2.2.2.2.2 x hx

/-- C81. A C program that passes on a conversation, call by call, and collects the bodies in callbacks, gets the body of
each message under the index of its transaction. Each transaction it asks for reads as the request with this number and
its response (or as having none, if none was given), unless it was removed as configured. -/
theorem C81_conversation {e : Env} {s : Conn} (hs : Reachable e s) (hw : Willing e) (hq : BetweenRequests s)
    (hp : BetweenResponses s) (hx : s.txs.request = s.txs.response) (turns : List Turn)
    (ht : Sensible e.cfg [] s.txs.map.length turns)
    (hm : ∀ q ∈ turns.flatMap Turn.asked, Modest q.headers q.body)
    (hr : ∀ r ∈ turns.flatMap Turn.answered, Modest r.headers r.body)
    (hk : s.txs.request + (turns.flatMap Turn.asked).length ≤ 2 ^ 63) (after : Bytes) :
    ∃ final, aloneCalls e (turns.map (Turn.call after)) s = .ok (turns.map (fun _ => .stream (some .data)), final) ∧
      ∀ i q, (turns.flatMap Turn.asked)[i]? = some q →
        ∃ tx, (ConnCall.tx (s.txs.request + i)).run e final = .ok (.tx tx, final) ∧
        collected .requestBodyData (s.txs.request + i) final.trace =
          collected .requestBodyData (s.txs.request + i) s.trace ++ q.body.content ∧
        match (turns.flatMap Turn.answered)[i]? with
        | none => ReadsRequest tx (s.txs.request + i) q ∧ ReadsNoResponse tx
        | some r =>
          collected .responseBodyData (s.txs.request + i) final.trace =
            collected .responseBodyData (s.txs.request + i) s.trace ++ r.body.content ∧
          if e.cfg.txAutoDestroy then tx = none else ReadsRequest tx (s.txs.request + i) q ∧ ReadsResponse tx r := by
  obtain ⟨h1, h2, h3, -⟩ := C60_conversation hs hw hq hp hx turns ht
  obtain ⟨hwq, hwr⟩ := sensible_wellFormed turns _ _ ht
  refine ⟨_, called after turns s h1, fun i q hi => ⟨_, rfl, ?_, ?_⟩⟩
  · rw [h2, collected_append]
    congr 1
    exact conversation_asked turns _ _ i q hi (hm q (List.mem_of_getElem? hi)).length
  have hq' := List.mem_of_getElem? hi
  have hlt : i < (turns.flatMap Turn.asked).length := by
    by_contra hn
    rw [List.getElem?_eq_none (by omega)] at hi
    cases hi
  have h4 := h3 i q hi
  have hstarted : ∀ {t : Tx} {k : Nat} {q : Request}, Records t k q → t.isStarted = true := by
    intro t k q h
    unfold Tx.isStarted
    rw [h.progress]
    rfl
  generalize hfin : (turns.map Turn.op).foldl (Op.after e) s = final at h2 h4 ⊢
  cases ha : (turns.flatMap Turn.answered)[i]? with
  | none =>
    rw [ha] at h4
    obtain ⟨t, ht1, ht2, ht3⟩ := h4
    have : connpTx final (s.txs.request + i) = some t := by
      unfold connpTx
      rw [ht1]
      dsimp only
      rw [if_pos (hstarted ht2)]
    dsimp only
    rw [this]
    exact ⟨C81_request ht2 (request_fields (hwq q hq')) (hm q hq') (by omega), C81_unanswered ht3⟩
  | some r =>
    rw [ha] at h4
    have hr' := List.mem_of_getElem? ha
    refine ⟨?_, ?_⟩
    · rw [h2, collected_append]
      congr 1
      exact conversation_answered turns _ _ i r ha (hr r hr').length
    · unfold Exchanged at h4
      dsimp only at h4
      split at h4
      · next hauto =>
        rw [if_pos hauto]
        unfold connpTx
        rw [h4]
      · next hauto =>
        rw [if_neg hauto]
        obtain ⟨t, ht1, ht2, ht3⟩ := h4
        have : connpTx final (s.txs.request + i) = some t := by
          unfold connpTx
          rw [ht1]
          dsimp only
          rw [if_pos (hstarted ht2)]
        rw [this]
        obtain ⟨head, hwf⟩ := hwr r hr'
        exact ⟨C81_request ht2 (request_fields (hwq q hq')) (hm q hq') (by omega),
          C81_response ht3 (response_fields hwf) (hr r hr')⟩

/-- Case for C81: the conversation of C60 (its other hypotheses are met there), with few fields and short bodies; and
names that are looked up. -/
example : (∀ q ∈ sampleTurns.flatMap Turn.asked, (q.headers ++ q.body.trailer).length ≤ 64 ∧
      (renderBlock (q.headers ++ q.body.trailer)).length < 2 ^ 63 ∧ q.body.content.length < 2 ^ 63) ∧
    (∀ r ∈ sampleTurns.flatMap Turn.answered, (r.headers ++ r.body.trailer).length ≤ 64 ∧
      (renderBlock (r.headers ++ r.body.trailer)).length < 2 ^ 63 ∧ r.body.content.length < 2 ^ 63) ∧
    (sampleTurns.flatMap Turn.asked).length = 4 ∧ (sampleTurns.flatMap Turn.answered).length = 3 := by decide +kernel

example : valuesOf [⟨b! "Via", b! " ", b! "a", []⟩, ⟨b! "Host", b! " ", b! "h", []⟩, ⟨b! "VIA", [], b! "b", []⟩] (b! "via") =
    [b! "a", b! "b"] := by
  have h : ∀ a b : Bytes, EqNocase a b ↔ a.map lower = b.map lower := fun a b => (eqNocase_map a b).symm
  simp [valuesOf, h]
  decide

/-! Every pointer, every number -/

/-- C81. Everything may be asked of NULL: texts, fields and tables are NULL, numbers -1, flags and yes-or-no 0, the
enumerations have their value for an error, data is empty. -/
theorem C81_null :
    (∀ g : TxText, g.call none = none) ∧ (∀ g : UriText, g.call none = none) ∧
    (∀ g : TxNumber, g.call none = if g ∈ [TxNumber.isProtocol09, .isHttp2Upgrade, .flags] then 0 else -1) ∧
    txRequestMethodNumber none = .error ∧ txRequestProtocolNumber none = .error ∧ txRequestTransferCoding none = .error ∧
    txRequestContentEncoding none = .error ∧ txRequestAuthType none = .error ∧ txResponseProtocolNumber none = .error ∧
    txRequestProgress none = .error ∧ txResponseProgress none = .error ∧
    (∀ key, headersGet none key = .ok none ∧ txRequestHeader none key = .ok none ∧ txResponseHeader none key = .ok none) ∧
    (∀ hs, headersGet hs none = .ok none) ∧ (∀ tx, txRequestHeader tx none = .ok none ∧ txResponseHeader tx none = .ok none) ∧
    (∀ i, headersGetIndex none i = none ∧ txRequestHeaderIndex none i = none ∧ txResponseHeaderIndex none i = none) ∧
    headersFlags none = 0 ∧ headersSize none = -1 ∧ headerName none = none ∧ headerValue none = none ∧
    headerNameLen none = -1 ∧ headerValueLen none = -1 ∧ headerFlags none = 0 ∧ txRequestHeaders none = none ∧
    txResponseHeaders none = none ∧ txParsedUri none = none ∧ uriPortNumber none = -1 ∧ dataData none = none ∧
    dataLen none = -1 ∧ dataIsEmpty none = true := by
  refine ⟨fun _ => rfl, fun _ => rfl, fun g => by cases g <;> rfl, rfl, rfl, rfl, rfl, rfl, rfl, rfl, rfl,
    fun _ => ⟨rfl, rfl, rfl⟩, ?_, ?_, fun _ => ⟨rfl, rfl, rfl⟩, rfl, rfl, rfl, rfl, rfl, rfl, rfl, rfl, rfl, rfl, rfl, rfl,
    rfl, rfl⟩
  · rintro (_ | hs) <;> rfl
  · rintro (_ | t) <;> exact ⟨rfl, rfl⟩

/-- C81. The data given to a callback is data, the end of the data (NULL and no length), or a gap (NULL and its length);
a length of 2^63 or more is -1. -/
theorem C81_data (b : Bytes) (n : Nat) (hb : b.length < 2 ^ 63) (hn : n < 2 ^ 63) :
    (readMemory (dataData (some (.ofBytes b))) (dataLen (some (.ofBytes b))) = some b ∧
      (dataIsEmpty (some (.ofBytes b)) = true ↔ b = [])) ∧
    (dataData (some {}) = none ∧ dataLen (some {}) = 0 ∧ dataIsEmpty (some {}) = true) ∧
    (dataData (some (.ofGap n)) = none ∧ dataLen (some (.ofGap n)) = n ∧
      (dataIsEmpty (some (.ofGap n)) = true ↔ n = 0)) := by
  refine ⟨⟨?_, ?_⟩, ⟨rfl, rfl, rfl⟩, rfl, ?_, ?_⟩
  · have h1 : dataData (some (.ofBytes b)) = some b := by simp [dataData, PData.unconsumed, PData.ofBytes]
    have h2 : dataLen (some (.ofBytes b)) = signed b.length := by simp [dataLen, PData.len, PData.asSlice, PData.ofBytes]
    rw [h1, h2, readMemory_all hb]
  · simp [dataIsEmpty, PData.isEmpty, PData.len, PData.asSlice, PData.ofBytes]
  · have : dataLen (some (.ofGap n)) = signed n := by
      simp only [dataLen, PData.len, PData.ofGap, Option.map_some, Option.getD_some]
      by_cases h : n = 0
      · subst h; rfl
      · rw [if_neg (by omega), Nat.sub_zero]
    rw [this, signed_small hn]
  · simp only [dataIsEmpty, PData.isEmpty, PData.len, PData.ofGap, Option.map_some, Option.getD_some, beq_iff_eq]
    by_cases h : n = 0
    · simp [h]
    · rw [if_neg (by omega)]; omega

/-- C81. The flags of a table are those that one of its fields has. -/
theorem C81_flags (hs : Headers) (m : Flags) :
    isSet (headersFlags (some hs)) m = true ↔ ∃ i, isSet (headerFlags (headersGetIndex (some hs) i)) m = true := by
  have key : ∀ (hs : Headers) (f : Flags), isSet (hs.foldl (fun f h => f ||| h.flags) f) m = true ↔
      isSet f m = true ∨ ∃ h ∈ hs, isSet h.flags m = true := by
    intro hs
    induction hs with
    | nil => simp
    | cons h hs ih =>
      intro f
      rw [List.foldl_cons, ih, isSet_or]
      simp [or_assoc]
  show isSet (hs.foldl (fun f h => f ||| h.flags) 0) m = true ↔ _
  rw [key, isSet_zero]
  constructor
  · rintro (h | ⟨h, hm, hf⟩)
    · cases h
    · obtain ⟨i, hi, rfl⟩ := List.getElem_of_mem hm
      refine ⟨i, ?_⟩
      show isSet ((hs[i]?.map (·.flags)).getD 0) m = true
      rw [List.getElem?_eq_getElem hi]
      exact hf
  · rintro ⟨i, h⟩
    have h : isSet ((hs[i]?.map (·.flags)).getD 0) m = true := h
    cases hi : hs[i]? with
    | none => rw [hi] at h; simp [isSet_zero] at h
    | some x =>
      rw [hi] at h
      exact .inr ⟨x, List.mem_of_getElem? hi, h⟩

open Spec.UriText in
/-- C81. The parts of which a URI was put together (as in C49) are read with the functions for the parts. -/
theorem C81_uri (sc host : Bytes) (user password port path query fragment : Option Bytes)
    (h : PlainParts
      { scheme := some sc, username := user, password := password, hostname := some host, port := port
        path := path, query := query, fragment := fragment } sc host)
    (hat : user = none → 64 ∉ host ++ part (b! ":") port ++ tailText path query fragment) :
    let uri := Uri.parseUri {} (sc ++ b! ":" ++ b! "//" ++
      (match (generalizing := false) user with
       | none => []
       | some x => x ++ part (b! ":") password ++ b! "@") ++
      host ++ part (b! ":") port ++ tailText path query fragment)
    UriText.scheme.call (some uri) = some sc ∧ UriText.username.call (some uri) = user ∧
    UriText.password.call (some uri) = password ∧ UriText.hostname.call (some uri) = some host ∧
    UriText.port.call (some uri) = port ∧ UriText.path.call (some uri) = path ∧
    UriText.query.call (some uri) = query ∧ UriText.fragment.call (some uri) = fragment ∧ uriPortNumber (some uri) = -1 := by
  have h1 := C49_uri_round_trip _ sc host h hat
  simp only [uriText] at h1
  dsimp only
  cases user <;> rw [h1] <;> exact ⟨rfl, rfl, rfl, rfl, rfl, rfl, rfl, rfl, rfl⟩

/-- Case for C81: the URI of C49. -/
example : UriText.port.call (some (Uri.parseUri {} (b! "http://u:p:w@[::1]:80/a/b?x=1?#"))) = some (b! "80") := by
  decide +kernel

end Props
