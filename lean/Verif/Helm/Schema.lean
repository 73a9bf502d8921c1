import Verif.Json
/-
Model of `resources/helm/tools/generate-json-schema.py`: the schema that is packaged with the chart, made from the one that is
also the reference of the options. `none` is an exception. The script changes the dictionaries in place; the anchors of the YAML
file share dictionaries between options (values.schema.yaml:49-615), and to clean one twice is to clean it once, so that copies
are as good.
-/
namespace Verif.Helm.Schema

mutual
/-- generate-json-schema.py:29-47 `clean_jsonschema` -/
def clean : Json → Option Json
  | .obj l => (cleanKeys l).map .obj
  | _ => none
/-- generate-json-schema.py:38-47: the keys of a schema; the `description` goes (38-39), the `properties` are cleaned (44-47). -/
def cleanKeys : List (Str × Json) → Option (List (Str × Json))
  | [] => some []
  | (k, s) :: l =>
    if k = "description".toList then cleanKeys l
    else if k = "properties".toList then
      match cleanOptions s, cleanKeys l with
      | some s', some l' => some ((k, s') :: l')
      | _, _ => none
    else (cleanKeys l).map ((k, s) :: ·)
/-- generate-json-schema.py:45: `.items()` of what is under `properties` -/
def cleanOptions : Json → Option Json
  | .obj ps => (cleanEach ps).map .obj
  | _ => none
/-- generate-json-schema.py:45-47: the loop over the options; what is no mapping is left alone (46). -/
def cleanEach : List (Str × Json) → Option (List (Str × Json))
  | [] => some []
  | (p, .obj l) :: ps =>
    match cleanKeys l, cleanEach ps with
    | some l', some ps' => some ((p, .obj l') :: ps')
    | _, _ => none
  | (p, s) :: ps => (cleanEach ps).map ((p, s) :: ·)
end

end Verif.Helm.Schema
