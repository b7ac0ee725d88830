"""Loading packages of /repo/analysis/testdata."""
import glob, os, sys
import goparse, gotypes

ROOT = "/repo/analysis/testdata/src"
cache = {}


def load(path):
    if path not in cache:
        d = os.path.join(ROOT, path)
        if os.path.isdir(d):
            files = []
            for f in sorted(glob.glob(d + "/*.go")):
                n = goparse.parse(open(f).read())
                n.filename = os.path.basename(f)
                files.append(n)
            cache[path] = gotypes.Package(path, files, load)
        else:
            cache[path] = gotypes.std(path)
    return cache[path]


PATTERNS = ["001", "annotation", "docformat", "dotimport/inner1", "dotimport", "error_constructor", "errortypes", "examples", "field_assignment",
            "func_literal", "interfaces/inner1", "interfaces", "methods", "multifile", "multipackage/inner1", "multipackage", "recursion", "typecast",
            "dereference_assignment", "type_assertion"]
if __name__ == "__main__":
    import traceback
    for p in PATTERNS:
        try:
            q = load(p)
            print(p, q.name, len(q.types), len(q.nodes))
        except Exception as e:
            print("FAIL", p, repr(e))
            traceback.print_exc(limit=-2)
