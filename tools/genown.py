import re,sys
sys.path.insert(0,'/tmp/w')
import own
P=own.table('parse'); V=own.table('evaluate')
C=own.classes
fe=open('/verif/lean/Verif/Props/FieldEmits.lean').read()
out=['''import Verif.Props.FieldEmits

/-!
# Which classes of note each field class can add

`parseOwn f` and `evalOwn f` list the classes of note `parse` and `evaluate` of the field class `f` can add; the theorems
show that they add no others.
-/

namespace HL.Props
open HL.F

variable {add : AddNote}
''']
def L(xs): return '['+', '.join('.'+x for x in xs)+']'
def tab(name,doc,t,fix):
    o=[f'/-- {doc} -/',f'def {name} : FieldId → List NoteId']
    for k,(fs,cl) in t.items():
        cl=fix.get(k,cl)
        if not cl: continue
        line=f'  | .{k} => {L(cl)}'
        # wrap
        while len(line)>150:
            i=line.rfind(', ',0,150); o.append(line[:i+1]); line='      '+line[i+2:]
        o.append(line)
    o.append('  | _ => []'); return '\n'.join(o)+'\n'
cspK=[]
evfix={}
evfix['set_cookie_']=P['set_cookie_'][1]+[x for x in V['set_cookie_'][1] if x not in P['set_cookie_'][1]]
evfix['content_security_policy_']=['CONTENT_SECURITY_POLICY']
evfix['content_security_policy_report_only_']=['CONTENT_SECURITY_POLICY']
evfix['strict_transport_security_']=['HSTS_VALID','HSTS_INVALID']
evfix['permissions_policy_']=['PERMISSIONS_POLICY_PRESENT']
pfix={'set_cookie_':[],'content_security_policy_':[],'content_security_policy_report_only_':[],'strict_transport_security_':[]}
out.append(tab('parseOwn','the classes of note `parse` can add',P,pfix))
out.append(tab('evalOwn','the classes of note `evaluate` can add (for Set-Cookie, including those kept by `parse`)',V,evfix))
out.append('''/-- of one of the listed classes, and about `s` -/
structure Of (s : Option Str) (L : List NoteId) (n : Note) : Prop where
  cls : L.contains n.cls = true
  subject : ∀ x, s = some x → n.subject = x

theorem own_add {s : Option Str} {L : List NoteId} {a : AddNote} {cls : NoteId} {vrs : Dict Val} {cat} (h : L.contains cls = true)
    (hs : ∀ x, s = some x → a.subject = x) : Emits (Of s L) (a.add cls vrs cat) := by
  intro n hn
  simp only [AddNote.add, List.mem_singleton] at hn
  subst hn
  exact ⟨h, hs⟩

theorem foldl_addChild_cls (kids : List (NoteId × Dict Val)) : ∀ n : Note,
    (kids.foldl (fun n k => n.addChild k.1 k.2) n).cls = n.cls ∧ (kids.foldl (fun n k => n.addChild k.1 k.2) n).subject = n.subject := by
  induction kids with
  | nil => intro n; exact ⟨rfl, rfl⟩
  | cons k ks ih => intro n; rw [List.foldl_cons]; exact ih _

theorem own_addWith {s : Option Str} {L : List NoteId} {a : AddNote} {cls : NoteId} {vrs : Dict Val} {cat kids} (h : L.contains cls = true)
    (hs : ∀ x, s = some x → a.subject = x) : Emits (Of s L) (a.addWith cls vrs cat kids) := by
  intro n hn
  simp only [AddNote.addWith, List.mem_singleton] at hn
  subst hn
  refine ⟨?_, ?_⟩
  · rw [(foldl_addChild_cls _ _).1]; exact h
  · rw [(foldl_addChild_cls _ _).2]; exact hs

/-- every one of the first list is in the second -/
def subList (a b : List NoteId) : Bool := a.all b.contains

theorem subList_mem {a b : List NoteId} (h : subList a b = true) {x} (hx : a.contains x = true) : b.contains x = true := by
  simp only [subList, List.all_eq_true] at h
  exact h x (by simpa using hx)

theorem noSubject {a : AddNote} : ∀ x, (none : Option Str) = some x → a.subject = x := by intro x h; cases h
theorem sameSubject {a : AddNote} : ∀ x, some a.subject = some x → a.subject = x := by intro x h; cases h; rfl

/-- step through the code of a check -/
macro "own_step" : tactic => `(tactic| first
  | assumption
  | with_reducible exact emits_pure _
  | with_reducible exact emits_throw _
  | with_reducible exact emits_lift _
  | ((with_reducible refine own_add ?_ ?_) <;> first | assumption | exact noSubject | exact sameSubject | rfl | (refine subList_mem (by assumption) ?_; rfl))
  | ((with_reducible refine own_addWith ?_ ?_) <;> first | assumption | exact noSubject | exact sameSubject | rfl)
  | with_reducible refine emits_bind ?_ ?_
  | with_reducible refine emits_when ?_
  | with_reducible refine emits_ite ?_ ?_
  | with_reducible refine emits_forEach ?_
  | with_reducible refine emits_mapM ?_
  | with_reducible intro _
  | split
  | dsimp only)

/-- the classes `parse_params` can add -/
def paramNotes : List NoteId := %s
/-- the classes `check_media_type` can add, besides the caller's -/
def mediaNotes : List NoteId := %s

variable {s : Option Str} {L : List NoteId}

theorem mk_bad {x : NoteId} (h : L.contains x = true) : ∀ cls, some x = some cls → L.contains cls = true := by
  intro c hc; cases hc; exact h
theorem mk_nobad : ∀ cls, (none : Option NoteId) = some cls → L.contains cls = true := by
  intro c hc; cases hc

theorem checkMediaType_own (hs : ∀ x, s = some x → add.subject = x) (v bad ref w t) (hL : subList mediaNotes L = true) (hb : ∀ cls, bad = some cls → L.contains cls = true) :
    Emits (Of s L) (checkMediaType add v bad ref w t) := by
  unfold checkMediaType
  dsimp only
  generalize partition 47 v = p
  obtain ⟨a, b, c⟩ := p
  cases bad with
  | none => repeat' own_step
  | some cls =>
    have h1 := hb cls rfl
    clear hb
    repeat' own_step

theorem parseParam_own (hs : ∀ x, s = some x → add.subject = x) (hL : subList paramNotes L = true) (env ns d p) : Emits (Of s L) (parseParam env add ns d p) := by
  unfold parseParam; repeat' own_step

theorem parseParamsLoop_own (hs : ∀ x, s = some x → add.subject = x) (hL : subList paramNotes L = true) (env ns ps) :
    ∀ d, Emits (Of s L) (parseParamsLoop env add ns d ps) := by
  induction ps with
  | nil => intro d; exact emits_pure _
  | cons p ps ih => intro d; exact emits_bind (parseParam_own hs hL _ _ _ _) fun d => ih d

theorem parseParams_own (hs : ∀ x, s = some x → add.subject = x) (hL : subList paramNotes L = true) (env x ns dl) : Emits (Of s L) (parseParams env add x ns dl) :=
  parseParamsLoop_own hs hL _ _ _ _

theorem parseMediaType_own (hs : ∀ x, s = some x → add.subject = x) (env v bad ref w ns) (hL : subList mediaNotes L = true) (hL2 : subList paramNotes L = true)
    (hb : ∀ cls, bad = some cls → L.contains cls = true) : Emits (Of s L) (parseMediaType env add v bad ref w ns) := by
  unfold parseMediaType
  dsimp only
  exact emits_bind (checkMediaType_own hs _ _ _ _ _ hL hb) fun _ => emits_bind (parseParams_own hs hL2 _ _ _ _) fun _ => emits_pure _

theorem parseHttpDate_own (hs : ∀ x, s = some x → add.subject = x) (hL : subList [.BAD_DATE_SYNTAX, .DATE_OBSOLETE] L = true) (env v cat) : Emits (Of s L) (parseHttpDate env add v cat) := by
  unfold parseHttpDate; repeat' own_step

theorem checkSfParams_own (hs : ∀ x, s = some x → add.subject = x) (r known u b params) (hu : L.contains u = true) (hb : L.contains b = true) :
    Emits (Of s L) (checkSfParams r known add u b params) := by
  unfold checkSfParams
  refine emits_bind (emits_lift _) fun items => emits_bind (emits_mapM fun p => ?_) fun _ => emits_pure _
  unfold checkSfParam
  repeat' own_step

theorem tokenPolicy_own (hs : ∀ x, s = some x → add.subject = x) (ro table bad hd) (ht : ∀ p ∈ table, L.contains p.2 = true) (hb : L.contains bad = true) :
    Emits (Of s L) (tokenPolicy add ro table bad hd) := by
  unfold tokenPolicy
  refine emits_bind (emits_lift _) fun v => ?_
  dsimp only
  split
  · split
    · rename_i heq
      exact own_add (ht _ (List.mem_of_find?_eq_some heq)) hs
    · exact own_add hb hs
  · exact own_add hb hs
''' % (L(C('parseParams')), L([x for x in C('checkMediaType')])))
# per-function theorems
unf={}
for m in re.finditer(r'theorem (\w+)_emits[^\n]*\n(?:[^\n]*\n)*?\n',fe):
    pass
blocks=re.split(r'\n\n(?=theorem |/--|/-!)',fe)
def tr(proof):
    p=proof.replace('emits_step','own_step')
    p=re.sub(r'parseMediaType_emits h ([_ ]+)\(by intro c hc; cases hc; exact ⟨rfl, rfl⟩\)',r'parseMediaType_own SUBJ \1rfl rfl (mk_bad rfl)',p)
    p=re.sub(r'parseMediaType_emits h ([_ ]+)\(by intro c hc; cases hc\)',r'parseMediaType_own SUBJ \1rfl rfl mk_nobad',p)
    p=re.sub(r'checkMediaType_emits h.to0 ([_ ]+)\(by intro c hc; cases hc; exact ⟨rfl, rfl⟩\)',r'checkMediaType_own SUBJ \1rfl (mk_bad rfl)',p)
    p=p.replace('parseParams_emits h','parseParams_own SUBJ rfl').replace('parseHttpDate_emits h','parseHttpDate_own SUBJ rfl')
    p=re.sub(r'checkSfParams_emits h.to0 _ _ _ _ _ rfl rfl rfl rfl','checkSfParams_own SUBJ _ _ _ _ _ rfl rfl',p)
    return p
done={}
for b in blocks:
    m=re.match(r'theorem (\w+)_emits \(h : AddGood add keys\d\)( \([^)]*\))? :\s*Emits FieldNote \(([\w.]+) ([^)]*)\) := by\n(.*)',b,re.S)
    if not m: continue
    name,args,fn,rest,proof=m.groups()
    if fn=='permissions_policy.evaluate': continue
    if fn.endswith('.evaluate') or fn.endswith('.parse') or fn in('codingParse',):
        fns=fn
        key=fn
        cl=C(fn)
        if name=='accept_ch_evaluate' : pass
        na=len((args or '').replace('(','').replace(')','').split()); done[fn]=name+'_own'+' _'*na
        pr=tr(proof).rstrip()
        if name=='accept_ch_evaluate': pr=pr.replace('emits\n','own\n'); pr=re.sub(r'; emits$','; repeat\' own_step',pr)
        par=not fn.endswith('.evaluate')
        pr=pr.replace('SUBJ','sameSubject' if par else 'noSubject')
        sub='(some add.subject)' if par else 'none'
        out.append(f"theorem {name}_own{args or ''} : Emits (Of {sub} {L(cl)}) ({fn} {rest}) := by\n{pr}\n")
open('/tmp/w/done.txt','w').write(repr(done))

man="\ntheorem tokenPolicy_table_own {table : List (Str × NoteId)} (h : subList (table.map (·.2)) L = true) : ∀ p ∈ table, L.contains p.2 = true := by\n  intro p hp\n  exact subList_mem h (by simpa using ⟨p.1, hp⟩)\n\ntheorem coep_own (ro hd) : Emits (Of none %s) (coep.evaluate add ro hd) :=\n  tokenPolicy_own noSubject _ _ _ _ (by decide) rfl\ntheorem coop_own (ro hd) : Emits (Of none %s) (coop.evaluate add ro hd) :=\n  tokenPolicy_own noSubject _ _ _ _ (by decide) rfl\ntheorem coepRO_own (c hd) : Emits (Of none %s) (coepRO.evaluate c add hd) := by\n  unfold coepRO.evaluate coep.evaluate\n  repeat' first | exact tokenPolicy_own noSubject _ _ _ _ (by decide) rfl | own_step\ntheorem coopRO_own (c hd) : Emits (Of none %s) (coopRO.evaluate c add hd) := by\n  unfold coopRO.evaluate coop.evaluate\n  repeat' first | exact tokenPolicy_own noSubject _ _ _ _ (by decide) rfl | own_step\n\ntheorem csp_evaluate_own (ro hd) : Emits (Of none [.CONTENT_SECURITY_POLICY]) (csp.evaluate add ro hd) := by\n  unfold csp.evaluate\n  repeat' own_step\n\ntheorem csp_parse_own (ro aux v) : Emits (Of (some add.subject) []) (csp.parse ro aux v).2 := by\n  unfold csp.parse\n  generalize csp.directives [] [] (splitOn 59 v) = p\n  obtain ⟨d, dups⟩ := p\n  exact emits_pure _\n\ntheorem hsts_parse_own (aux v) : Emits (Of (some add.subject) []) (hsts.parse aux v).2 := by\n  unfold hsts.parse\n  exact emits_pure _\n\ntheorem hsts_evaluate_own (c hd) : Emits (Of none [.HSTS_VALID, .HSTS_INVALID]) (hsts.evaluate c add hd) := by\n  unfold hsts.evaluate\n  split\n  · exact emits_pure _\n  · dsimp only\n    refine own_addWith ?_ noSubject\n    split <;> rfl\n\ntheorem permissions_policy_own (c hd) : Emits (Of none [.PERMISSIONS_POLICY_PRESENT]) (permissions_policy.evaluate c add hd) := by\n  unfold permissions_policy.evaluate\n  split\n  · exact emits_pure _\n  · split\n    · repeat' own_step\n    · rename_i items _\n      generalize permissions_policy.features c items = p\n      obtain ⟨kids, err⟩ := p\n      dsimp only\n      repeat' own_step\n\ntheorem clear_site_data_parse_own (aux v) : Emits (Of (some add.subject) %s) (clear_site_data.parse add aux v).2 := by\n  unfold clear_site_data.parse; repeat' own_step\n\n/-- what `loose_parse` can add */ -/\ndef cookieNotes : List NoteId := %s\n\ntheorem processCookieAttribute_own (n v cn at_ up t l) : Emits (Of (some add.subject) cookieNotes) (processCookieAttribute n v cn at_ up t add l) := by\n  unfold processCookieAttribute; repeat' own_step\n\ntheorem cookieAttrLoop_own (cn up t avs) : ∀ seen at_ l, Emits (Of (some add.subject) cookieNotes) (cookieAttrLoop cn up t add avs seen at_ l) := by\n  induction avs with\n  | nil => intro _ _ _; exact emits_pure _\n  | cons a avs ih =>\n    intro seen at_ l\n    unfold cookieAttrLoop\n    repeat' first | (with_reducible exact ih _ _ _) | (with_reducible exact processCookieAttribute_own _ _ _ _ _ _ _) | own_step\n\ntheorem checkPrefixes_own (cn at_) : Emits (Of (some add.subject) cookieNotes) (checkPrefixes cn at_ add) := by\n  unfold checkPrefixes; repeat' own_step\n\ntheorem looseParse_own (s up t) : Emits (Of (some add.subject) cookieNotes) (looseParse s up t add) := by\n  unfold looseParse\n  repeat' first | (with_reducible exact cookieAttrLoop_own _ _ _ _ _ _ _) | (with_reducible exact checkPrefixes_own _ _) | own_step\n\n/-- what `evaluate` of `Set-Cookie` finds in its `aux` notes */ -/\ndef AuxOwn (f : FieldId) (a : Aux) : Prop := ∀ n ∈ a.notes, f = .set_cookie_ ∧ cookieNotes.contains n.cls = true\n\ntheorem set_cookie_parse_own (c aux v) : Emits (Of (some add.subject) []) (set_cookie.parse c add aux v).2 := by\n  unfold set_cookie.parse\n  split\n  · exact emits_throw _\n  · intro n hn; simp at hn\n\ntheorem set_cookie_parse_aux (c aux v) (ha : AuxOwn .set_cookie_ aux) : AuxOwn .set_cookie_ (set_cookie.parse c add aux v).1 := by\n  unfold set_cookie.parse\n  split\n  · exact ha\n  · intro n hn\n    simp only [List.mem_append] at hn\n    rcases hn with hn | hn\n    · exact ha n hn\n    · exact ⟨rfl, (looseParse_own _ _ _ n hn).cls⟩\n\ntheorem set_cookie_evaluate_own (hd) (ha : AuxOwn .set_cookie_ hd.aux) : Emits (Of none (evalOwn .set_cookie_)) (set_cookie.evaluate add hd) := by\n  have h1 : ∀ n ∈ hd.aux.notes, Of none (evalOwn .set_cookie_) n := fun n hn => ⟨subList_mem (by rfl) (ha n hn).2, by intro x h; cases h⟩\n  unfold set_cookie.evaluate\n  repeat' first | own_step | exact h1\n\ntheorem own_mono {α} {L L' : List NoteId} {w : W α} (h : Emits (Of s L) w) (hs : subList L L' = true) : Emits (Of s L') w :=\n  fun n hn => ⟨subList_mem hs (h n hn).cls, (h n hn).subject⟩\n\n/-- **`parse`** adds only notes of the classes listed for the field class -/\ntheorem Handler.parse_own (c : Ctx) (h : Handler) (v : Str) : Emits (Of (some add.subject) (parseOwn h.fid)) (h.parse c add v).2 := by\n  unfold Handler.parse\n  split <;> rename_i hf\n%s\n\n/-- **`evaluate`** adds only notes of the classes listed for the field class -/\ntheorem Handler.evaluate_own (c : Ctx) (h : Handler) (ha : AuxOwn h.fid h.aux) : Emits (Of none (evalOwn h.fid)) (h.evaluate c add).2 := by\n  have assign : ∀ {L} (w : W Val), Emits (Of none L) w → Emits (Of none L) (h.assign w).2 := by\n    intro L w hw\n    unfold Handler.assign\n    split <;> exact hw\n  have vals : ∀ {L} (w : W (List Val)), Emits (Of none L) w → Emits (Of none L) (h.appendVals w).2 := by\n    intro L w hw\n    unfold Handler.appendVals\n    split <;> exact hw\n  unfold Handler.evaluate\n  split <;> rename_i hf\n%s\n"
def l(f): return L(C(f))
done.update({'csp.parse':'csp_parse_own _ _ _','hsts.parse':'hsts_parse_own _ _','clear_site_data.parse':'clear_site_data_parse_own _ _','set_cookie.parse':'set_cookie_parse_own _ _ _',
 'csp.evaluate':'csp_evaluate_own _ _','coep.evaluate':'coep_own _ _','coop.evaluate':'coop_own _ _','coepRO.evaluate':'coepRO_own _ _','coopRO.evaluate':'coopRO_own _ _','hsts.evaluate':'hsts_evaluate_own _ _','permissions_policy.evaluate':'permissions_policy_own _ _'})
def app(nm):
    t=[x for x in out if ('theorem '+nm+' ') in x or ('theorem '+nm+'\n') in x]
    return nm
pp=[]
for k,(fs,cl) in P.items():
    f=fs[0] if fs else None
    if f in done: pp.append('  · rw [hf]; exact own_mono (%s) rfl'%done[f])
    else: pp.append('  · exact own_mono (emits_pure _ : Emits (Of _ []) _) rfl')
pp.append('  · exact emits_pure _')
ee=[]
done['max_forwards.evaluate']='max_forwards_evaluate_own _ h'
for k,(fs,cl) in V.items():
    f=fs[0]
    if k=='set_cookie_': ee.append('  · rw [hf] at ha ⊢; exact set_cookie_evaluate_own _ ha'); continue
    w='%s'
    if k in('accept_query_','vary_'): w='assign _ (%s)'
    if k=='nel_': w='vals _ (%s)'
    ee.append('  · rw [hf]; exact '+w%('own_mono (%s) rfl'%done[f]))
ee.append('  · exact emits_pure _')
out.append(man%(l('coep.evaluate'),l('coop.evaluate'),l('coepRO.evaluate'),l('coopRO.evaluate'),l('clear_site_data.parse'),L(P['set_cookie_'][1]),'\n'.join(pp),'\n'.join(ee)))
out.append('end HL.Props\n')
open('/verif/lean/Verif/Props/Own.lean','w').write('\n'.join(out).replace(' */ -/',' -/'))
print(len(done)); print([f for t in (P,V) for k,(fs,c) in t.items() for f in fs if f not in done])
