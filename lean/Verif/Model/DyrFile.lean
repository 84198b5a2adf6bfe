import Verif.Model.DyrTables

/-! Model of reading the records of a .dyr file into the data collections (src/parser/base_pti_parser.hpp 1016-1260,
1442-1488, 1520-1966): which records are for which device, and where their parameters go.  See Dyr.lean for the
simplifications; further ones: `p_busMap` finds the first bus of a list with the number; the loop over the
generators or loads of a bus is `find?` (the indices are assumed to have at most seven digits). -/
namespace GridPACK.Dyr
open StringUtils DataCollection
open RawBus (Val Data intVal)

/-- 1443-1460 `onGenerator`. -/
def genModels : List String :=
  ["GENCLS", "GENSAL", "GENROU", "GDFORM", "REGCA1", "REECA1", "REPCA1", "REPCTA1", "REGCB1", "REGCC1", "WSIEG1",
    "EXDC1", "EXDC2", "IEEET1", "SEXS", "GAST", "HYGOV", "ESST1A", "ESST4B", "GGOV1", "WSHYGP", "TGOV1", "PSSSIM",
    "WTDTA1", "WTARA1", "WTPTA1", "WTTQA1"]

/-- 1463-1469 `onBus`. -/
def busModels : List String := ["LVSHBL", "FRQTPAT"]

/-- 1472-1478 `onBranch`. -/
def branchModels : List String := ["DISTR1"]

/-- 1481-1488 `onLoad`. -/
def loadModels : List String := ["CIM6BL", "USRLOD", "IEELBL"]

/-- Membership of a name that was read. -/
def isIn (l : List String) (s : Str) : Bool := l.any (fun x => x.toList = s)

/-- The class used for a model name in `find_ds_par` (1582-1664). -/
def genDirect : List (String × Kind) :=
  [("GENCLS", gencls), ("GENSAL", gensal), ("GENROU", genrou), ("GDFORM", gdform), ("REGCA1", regca1),
    ("REGCB1", regcb1), ("REGCC1", regcc1), ("REECA1", reeca1), ("REPCA1", repca1), ("REPCTA1", repca1),
    ("WSIEG1", wsieg1), ("EXDC1", exdc1), ("EXDC2", exdc1), ("IEEET1", ieeet1), ("SEXS", sexs), ("ESST1A", esst1a),
    ("ESST4A", esst4b), ("GGOV1", ggov1), ("TGOV1", tgov1), ("GAST", gast), ("HYGOV", hygov), ("WSHYGP", wshygp),
    ("PSSSIM", psssim), ("WTDTA1", wtdta1), ("WTARA1", wtara1), ("WTPTA1", wtpta1), ("WTTQA1", wttqa1)]

/-- The class used for a model name in `find_ds_vector` (1823-1904). -/
def genStore : List (String × Kind) :=
  [("GENCLS", gencls), ("GENSAL", gensal), ("GENROU", genrou), ("GDFORM", gdform), ("REGCA1", regca1),
    ("REGCB1", regcb1), ("REGCC1", regcc1), ("REECA1", reeca1), ("REPCA1", repca1), ("REPCTA1", repca1),
    ("WSIEG1", wsieg1), ("EXDC1", exdc1), ("EXDC2", exdc1), ("IEEET1", ieeet1), ("SEXS", sexs), ("ESST1A", esst1a),
    ("ESST4B", esst4b), ("GGOV1", ggov1), ("TGOV1", tgov1), ("GAST", gast), ("HYGOV", hygov), ("WSHYGP", wshygp),
    ("PSSSIM", psssim), ("WTDTA1", wtdta1), ("WTARA1", wtara1), ("WTPTA1", wtpta1), ("WTTQA1", wttqa1)]

/-- The class used for a model name in `getDSExternal` (1076-1158). -/
def genExtract : List (String × Kind) :=
  [("GENCLS", gencls), ("GENSAL", gensal), ("GENROU", genrou), ("GDFORM", gdform), ("REGCA1", regca1),
    ("REGCB1", regcb1), ("REGCC1", regcc1), ("REECA1", reeca1), ("REPCA1", repca1), ("REPCTA1", repca1),
    ("WSIEG1", wsieg1), ("EXDC1", exdc1), ("EXDC2", exdc1), ("IEEET1", ieeet1), ("ESST1A", esst1a),
    ("ESST4B", esst4b), ("SEXS", sexs), ("GGOV1", ggov1), ("TGOV1", tgov1), ("GAST", gast), ("HYGOV", hygov),
    ("WSHYGP", wshygp), ("PSSSIM", psssim), ("WTDTA1", wtdta1), ("WTARA1", wtara1), ("WTPTA1", wtpta1),
    ("WTTQA1", wttqa1)]

/-- The relay classes (1701-1707, 1908-1925, 1180-1186). -/
def busKinds : List (String × Kind) := [("LVSHBL", lvshbl), ("FRQTPAT", frqtpat)]

/-- The load classes named in the second token (1744-1749, 1936-1941). -/
def loadStore : List (String × Kind) := [("CIM6BL", cim6bl), ("IEELBL", ieelbl)]

/-- The load classes named in the fourth token of a record of a user model (1750-1759, 1942-1951). -/
def userLoads : List (String × Kind) := [("ACMTBLU1", acmtblu1), ("CMLDBLU1", cmldblu1)]

/-- The load classes by the member `model` (1244-1255). -/
def loadExtract : List (String × Kind) :=
  [("CIM6BL", cim6bl), ("IEELBL", ieelbl), ("ACMTBLU1", acmtblu1), ("CMLDBLU1", cmldblu1)]

/-- The `if ... else if` chains over model names. -/
def pick (tab : List (String × Kind)) (s : Str) : Option Kind := (tab.find? (fun p => p.1.toList = s)).map (·.2)

/-- `getValue(name,&t_id,j)` with an empty `t_id` before. -/
def strVal (c : Data) (name : String) (j : Nat) : Str :=
  match getValue c .string ⟨name.toList, some (j : Int)⟩ ([] : Str) with
  | some r => r.2
  | none => []

/-- The index of a generator or load by its two-character name (1560-1576, 1058-1072, 1726-1743, 1226-1240). -/
def devIndex (c : Data) (num id : String) (tag : Str) : Option Nat :=
  (List.range (intVal c num.toList).toNat).find? (fun j => strVal c id j = tag)

/-- The relay classes first count up `RELAY_NUMBER` (lvshbl.hpp 47-54, 162-169; also frqtpat.hpp, distr1.hpp): the
index of the new relay and the collection afterwards. -/
def nextRelay (c : Data) : Option (Int × Data) :=
  match getValue c .int ⟨"RELAY_NUMBER".toList, none⟩ (0 : Int) with
  | none => none
  | some (false, _) => (addValue c .int ⟨"RELAY_NUMBER".toList, none⟩ (1 : Int)).map (fun c => (0, c))
  | some (true, n) => (setValue c .int ⟨"RELAY_NUMBER".toList, none⟩ (Int.add n 1)).map (fun r => (n, r.1))

/-- `parse` of a relay class. -/
def parseRelay (cv : Conv) (k : Kind) (ts : List Str) (c : Data) : Option Data :=
  (nextRelay c).bind (fun r => k.runParse cv ts (some r.1) r.2)

/-- `extract` of a relay class. -/
def extractRelay (k : Kind) (s : Struct) (c : Data) : Option Data :=
  (nextRelay c).bind (fun r => k.runExtract s (some r.1) r.2)

/-- A change of the element at a place of a list. -/
def modifyAt {α : Type} (f : α → Option α) : Nat → List α → Option (List α)
  | _, [] => none
  | 0, a :: as => (f a).map (· :: as)
  | n + 1, a :: as => (modifyAt f n as).map (a :: ·)

/-- What `find_ds_par` works on: the original numbers of the buses with their data collections, the ends of the
branches, and the variable `data`, which keeps its value from record to record and has none at first. -/
structure Net where
  buses : List (Int × Data)
  branches : List (Int × Int)
  ptr : Option Nat

/-- Reading a record for the bus with number `o` (`p_busMap->find`). -/
def atBus (net : Net) (o : Int) (f : Data → Option Data) : Option Net :=
  match net.buses.findIdx? (fun b => b.1 = o) with
  | none => some net
  | some i => (modifyAt (fun b => (f b.2).map (fun c => (b.1, c))) i net.buses).map
      (fun bs => ⟨bs, net.branches, some i⟩)

/-- 1560-1667: the part of `find_ds_par` for a generator of the bus. -/
def directGen (cv : Conv) (ts : List Str) (sval : Str) (c : Data) : Option Data :=
  if 0 < intVal c "GENERATOR_NUMBER".toList then
    match ts[2]? with
    | none => none
    | some t =>
      match devIndex c "GENERATOR_NUMBER" "GENERATOR_ID" (cv.tag t) with
      | none => some c
      | some g =>
        match pick genDirect sval with
        | none => some c
        | some k => k.runParse cv ts (some (g : Int)) c
  else some c

/-- 1724-1761: the part of `find_ds_par` for a load of the bus; without a matching load the index is −1. -/
def directLoad (cv : Conv) (ts : List Str) (sval : Str) (c : Data) : Option Data :=
  let found : Option (Option Nat) :=
    if 0 < intVal c "LOAD_NUMBER".toList then
      ts[2]?.map (fun t => devIndex c "LOAD_NUMBER" "LOAD_ID" (cv.tag t))
    else some none
  match found with
  | none => none
  | some found =>
    let l : Int := match found with
      | none => -1
      | some l => (l : Int)
    if sval = "USRLOD".toList then
      match ts[3]? with
      | none => none
      | some u =>
        match pick userLoads (cv.plain u) with
        | none => some c
        | some k => k.runParse cv ts (some l) c
    else
      match pick loadStore sval with
      | none => some c
      | some k => k.runParse cv ts (some l) c

/-- 1541-1764: one record in `find_ds_par`.  A record for a distance relay (1762-1777) looks for the branch but then
stores where `data` points. -/
def directRec (cv : Conv) (ts : List Str) (net : Net) : Option Net :=
  match ts[0]?, ts[1]? with
  | some t0, some t1 =>
    let sval := cv.name t1
    if isIn genModels sval then atBus net (cv.atoi t0) (directGen cv ts sval)
    else if isIn busModels sval then
      match (if sval = "LVSHBL".toList then some t0 else ts[3]?), pick busKinds sval with
      | some t, some k => atBus net (cv.atoi t) (parseRelay cv k ts)
      | _, _ => none
    else if isIn loadModels sval then atBus net (cv.atoi t0) (directLoad cv ts sval)
    else if isIn branchModels sval then
      match ts[2]? with
      | none => none
      | some t2 =>
        if (cv.atoi t0, cv.atoi t2) ∈ net.branches then
          match net.ptr with
          | none => none
          | some i => (modifyAt (fun b => (parseRelay cv distr1 ts b.2).map (fun c => (b.1, c))) i net.buses).map
              (fun bs => ⟨bs, net.branches, net.ptr⟩)
        else some net
    else some net
  | _, _ => none

/-- `find_ds_par` on the records of a file. -/
def direct (cv : Conv) : List (List Str) → Net → Option Net
  | [], net => some net
  | ts :: rs, net => (directRec cv ts net).bind (direct cv rs)

/-- What `find_ds_vector` appends to its vectors for one record: the key for the distribution and the struct. -/
inductive Out where
  | gen (bus : Int) (s : Struct)
  | busRelay (bus : Int) (s : Struct)
  | load (bus : Int) (s : Struct)
  | branchRelay (ends : Int × Int) (s : Struct)
  | nothing

/-- 1795-1964: one record in `find_ds_vector`.  `junk` is what the uninitialised struct holds. -/
def storeRec (cv : Conv) (junk : Struct) (ts : List Str) : Option Out :=
  match ts[0]?, ts[1]? with
  | some t0, some t1 =>
    let sval := cv.name t1
    if isIn genModels sval then
      match ts[2]? with
      | none => none
      | some t2 =>
        let s := ((junk.put "bus_id" ⟨.int, cv.atoi t0⟩).put "gen_id" ⟨.string, cv.tag t2⟩).put "model" ⟨.string, sval⟩
        (match pick genStore sval with
          | none => some s
          | some k => runStore cv ts k.store s).map (fun s : Struct => .gen (s .int "bus_id") s)
    else if isIn busModels sval then
      match (if sval = "LVSHBL".toList then some t0 else ts[3]?), pick busKinds sval with
      | some t, some k => (runStore cv ts k.store (junk.put "bus_id" ⟨.int, cv.atoi t⟩)).map
          (fun s => .busRelay (s .int "bus_id") s)
      | _, _ => none
    else if isIn loadModels sval then
      match ts[2]? with
      | none => none
      | some t2 =>
        let s := (junk.put "bus_id" ⟨.int, cv.atoi t0⟩).put "id" ⟨.string, cv.tag t2⟩
        (if sval = "USRLOD".toList then
          match ts[3]? with
          | none => none
          | some u =>
            match pick userLoads (cv.plain u) with
            | none => some s
            | some k => runStore cv ts k.store s
        else
          match pick loadStore sval with
          | none => some s
          | some k => runStore cv ts k.store s).map (fun s : Struct => .load (s .int "bus_id") s)
    else if isIn branchModels sval then
      match ts[3]? with
      | none => none
      | some t3 => (runStore cv ts distr1.store
          ((junk.put "from_bus" ⟨.int, cv.atoi t0⟩).put "to_bus" ⟨.int, cv.atoi t3⟩)).map
            (fun s => .branchRelay (s .int "from_bus", s .int "to_bus") s)
    else some .nothing
  | _, _ => none

/-- `find_ds_vector` on the records of a file, each with the content of its uninitialised struct. -/
def storeAll (cv : Conv) : List (Struct × List Str) → Option (List Out)
  | [] => some []
  | r :: rs => (storeRec cv r.1 r.2).bind (fun o => (storeAll cv rs).map (o :: ·))

/-- `gen_data` with the bus numbers. -/
def gensOf (l : List Out) : List (Int × Struct) := l.filterMap (fun o => match o with | .gen b s => some (b, s) | _ => none)

/-- `bus_relay_data` with the bus numbers. -/
def busRelaysOf (l : List Out) : List (Int × Struct) :=
  l.filterMap (fun o => match o with | .busRelay b s => some (b, s) | _ => none)

/-- `load_data` with the bus numbers. -/
def loadsOf (l : List Out) : List (Int × Struct) := l.filterMap (fun o => match o with | .load b s => some (b, s) | _ => none)

/-- `branch_relay_data` with the ends of the branches. -/
def branchRelaysOf (l : List Out) : List ((Int × Int) × Struct) :=
  l.filterMap (fun o => match o with | .branchRelay e s => some (e, s) | _ => none)

/-- 1055-1160: the parameters of one generator. -/
def putGen (s : Struct) (c : Data) : Option Data :=
  match devIndex c "GENERATOR_NUMBER" "GENERATOR_ID" (s .string "gen_id") with
  | none => some c
  | some g =>
    match pick genExtract (s .string "model") with
    | none => some c
    | some k => k.runExtract s (some (g : Int)) c

/-- 1176-1187: the parameters of a relay of a bus. -/
def putBusRelay (s : Struct) (c : Data) : Option Data :=
  match pick busKinds (s .string "model") with
  | none => some c
  | some k => extractRelay k s c

/-- 1206-1212: the parameters of a relay of a branch. -/
def putBranchRelay (s : Struct) (c : Data) : Option Data :=
  if isIn ["DISTR1"] (s .string "model") then extractRelay distr1 s c else some c

/-- 1222-1258: the parameters of a load. -/
def putLoad (s : Struct) (c : Data) : Option Data :=
  match devIndex c "LOAD_NUMBER" "LOAD_ID" (s .string "id") with
  | none => some c
  | some l =>
    match pick loadExtract (s .string "model") with
    | none => some c
    | some k => k.runExtract s (some (l : Int)) c

/-- The loops over the delivered structs: local index and struct. -/
def putAll (f : Struct → Data → Option Data) : List (Nat × Struct) → List Data → Option (List Data)
  | [], cs => some cs
  | p :: ps, cs => (modifyAt (f p.2) p.1 cs).bind (putAll f ps)

/-- One part of `getDSExternal`: the structs, all from process 0, are distributed among `n` processes (see
HashDistr.lean) and put into the collections of process `me`, which holds components with the original indices
`orig`; `bound total` are the places where `total` structs are divided. -/
def spread {K : Type} [DecidableEq K] (n : Nat) (bound : Nat → Nat → Nat) (puts : List Nat) (me : Nat)
    (f : Struct → Data → Option Data) (recs : List (K × Struct)) (orig : List K) (cs : List Data) :
    Option (List Data) :=
  (HashDistr.distribute n (bound recs.length) (fun p => if p = 0 then recs else []) puts orig me).bind
    (fun out => putAll f out cs)

/-- 1016-1260 `getDSExternal` on process `me`: the data of its buses and branches afterwards. -/
def external (cv : Conv) (n : Nat) (bound : Nat → Nat → Nat) (puts : List Nat) (me : Nat)
    (recs : List (Struct × List Str)) (busNo : List Int) (ends : List (Int × Int)) (bus branch : List Data) :
    Option (List Data × List Data) :=
  (storeAll cv recs).bind (fun outs =>
    (spread n bound puts me putGen (gensOf outs) busNo bus).bind (fun bus =>
      (spread n bound puts me putBusRelay (busRelaysOf outs) busNo bus).bind (fun bus =>
        (spread n bound puts me putBranchRelay (branchRelaysOf outs) ends branch).bind (fun branch =>
          (spread n bound puts me putLoad (loadsOf outs) busNo bus).map (fun bus => (bus, branch))))))

end GridPACK.Dyr
