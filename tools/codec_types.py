"""Named types of an entities.go, shared by the scripts."""
import importlib.util, os, json
_s = importlib.util.spec_from_file_location("verif_codec", os.path.join(os.path.dirname(os.path.abspath(__file__)), "codec.py"))
_c = importlib.util.module_from_spec(_s); _s.loader.exec_module(_c)

def types_of(path):
    return _c.parse(path)[0]

def ty_of(types, t):
    base = {"interface{}": ".any", "string": ".str", "bool": ".bool", "int64": ".int", "float64": ".float"}
    if t in base: return base[t]
    for p, c in (("*", ".ptr"), ("[]", ".slice"), ("map[string]", ".map")):
        if t.startswith(p): return "(%s %s)" % (c, ty_of(types, t[len(p):]))
    if t in types: return "(.named %s)" % json.dumps(t)
    raise SystemExit("type " + t)
