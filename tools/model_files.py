#!/usr/bin/env python3
"""Writes lean/Verif/Conformance/ModelFiles.lean: the JSON files of the test models in /repo as texts, and what must be
read from them according to another JSON parser.

usage: model_files.py /repo OUT.lean
"""
import json, os, sys
from fractions import Fraction

repo, out = sys.argv[1], sys.argv[2]
base = os.path.join(repo, "data/tests/models")

def lit(s):
    r = ""
    for c in s:
        if c == '"': r += '\\"'
        elif c == "\\": r += "\\\\"
        elif c == "\n": r += "\\n"
        elif c == "\t": r += "\\t"
        else: r += c
    return '"' + r + '"'

class Obj(list): pass

def tree(x):
    if x is None: return ".null"
    if isinstance(x, bool): return ".bool " + str(x).lower()
    if isinstance(x, int): return f".int ({x})"
    if isinstance(x, Fraction): return f".float ({x.numerator} / {x.denominator})"
    if isinstance(x, str): return f".str (s {lit(x)})"
    if isinstance(x, Obj): return ".obj [" + ", ".join(f"(s {lit(k)}, {tree(v)})" for k, v in x) + "]"
    return ".arr [" + ", ".join(tree(v) for v in x) + "]"

def texts(l): return "[" + ", ".join("s " + lit(x) for x in l) + "]"

KINDS = {  # name in the Lean code of what is read, by the name of the file
    "nlu_engine.json": "engine", "featurizer.json": "featurizer", "intent_classifier.json": "classifier",
    "slot_filler.json": "slotFiller",
}

def kind(path, doc):
    name = os.path.basename(path)
    if name in KINDS: return KINDS[name]
    parent = os.path.basename(os.path.dirname(path))
    if name == "intent_parser.json":
        return {"lookup_intent_parser": "lookup", "deterministic_intent_parser": "deterministic",
                "probabilistic_intent_parser": "probabilistic"}[parent]
    if name == "vectorizer.json": return "cooc" if parent.startswith("cooc") else "tfidf"
    if name == "metadata.json":
        if "resources/" in path: return "resources"
        if parent == "custom_entity_parser": return "customParser"
        if "unit_name" in doc and parent not in ("featurizer", "tfidf_vectorizer", "cooccurrence_vectorizer"): return "unit"
    return None

def wrap(s, width=116):
    """Breaks a long line at blanks outside of string literals."""
    lines, line, quoted, i = [], "", False, 0
    for word in s.split(" "):
        if line and len(line) + 1 + len(word) > width and not quoted:
            lines.append(line); line = "  " + word
        else:
            line = line + " " + word if line else word
        n = word.replace("\\\\", "").replace('\\"', "").count('"')
        if n % 2: quoted = not quoted
    return "\n".join(lines + [line])

O = ["import Verif.Model.JsonText", "import Verif.Model.Decode", "import Verif.Conformance.JsonEq", "",
     "/-! # The files of the test models", "",
     "Written by tools/model_files.py from the files in /repo/data/tests/models.  Each text is read and compared with what",
     "another JSON parser makes of it, and then decoded.  These are tests run by the interpreter, not proofs. -/", "",
     "namespace Snips.Conformance", ""]
names = []
n = 0
for model in sorted(os.listdir(base)):
    if not os.path.isdir(os.path.join(base, model)): continue
    for d, ds, fs in sorted(os.walk(os.path.join(base, model))):
        for f in sorted(fs):
            p = os.path.join(d, f)
            if not f.endswith(".json") or os.path.getsize(p) > 6000: continue
            rel = os.path.relpath(p, repo)
            text = open(p, encoding="utf-8").read()
            doc = json.loads(text, parse_float=Fraction, object_pairs_hook=Obj)
            k = kind(rel, dict(doc))
            if k is None: continue
            n += 1
            names.append(os.path.relpath(p, base))
            O += [f"/-- {rel} -/", f"def file{n} : Text := s {lit(text)}", ""]
            O += [f"/-- What it denotes. -/", wrap(f"def tree{n} : Json := {tree(doc)}"), ""]
            O += [f"#guard reads file{n} tree{n}", ""]
            c = dict(doc)
            dec = "decode" + k[0].upper() + k[1:] + (" Rounding.exact" if k in ("classifier", "tfidf") else "")
            pick, want = {
                "unit": ("fun u => u", {"lookup_intent_parser": ".lookupIntentParser",
                    "deterministic_intent_parser": ".deterministicIntentParser",
                    "probabilistic_intent_parser": ".probabilisticIntentParser",
                    "crf_slot_filler": ".crfSlotFiller",
                    "log_reg_intent_classifier": ".logRegIntentClassifier"}.get(c.get("unit_name"))),
                "engine": ("fun m => (m.languageCode, m.intentParsers, m.builtinEntityParser, m.customEntityParser)",
                    f'(s {lit(dict(c.get("dataset_metadata", [])).get("language_code", ""))}, {texts(c.get("intent_parsers", []))}, '
                    f's {lit(c.get("builtin_entity_parser") or "")}, s {lit(c.get("custom_entity_parser") or "")})'),
                "resources": ("fun m => (m.gazetteers, m.wordClusters, m.stems, m.stopWords)",
                    f'(some {texts(c.get("gazetteers") or [])}, some {texts(c.get("word_clusters") or [])}, '
                    f'some (s {lit(c.get("stems") or "")}), some (s {lit(c.get("stop_words") or "")}))'),
                "customParser": ("fun m => (m.language, m.parserDirectory)",
                    f'(s {lit(str(c.get("language")))}, s {lit(str(c.get("parser_directory")))})'),
                "lookup": ("fun m => (m.languageCode, m.slotsNames, m.intentsNames, m.map.map fun e => e.1 :: e.2.1 :: e.2.2)",
                    f'(s {lit(str(c.get("language_code")))}, {texts(c.get("slots_names", []))}, {texts(c.get("intents_names", []))}, '
                    "[" + ", ".join(f"{[int(a), b[0]] + b[1]}" for a, b in (c["map"] if k == "lookup" else [])) + "])"),
                "deterministic": ("fun m => (m.languageCode, m.patterns)",
                    f'(s {lit(str(c.get("language_code")))}, '
                    "[" + ", ".join(f"(s {lit(a)}, {texts(b)})" for a, b in (c["patterns"] if k == "deterministic" else [])) + "])"),
                "probabilistic": ("fun m => m",
                    "[" + ", ".join(f'(s {lit(dict(a)["intent"])}, s {lit(dict(a)["slot_filler_name"])})'
                        for a in (c["slot_fillers"] if k == "probabilistic" else [])) + "]"),
                "classifier": ("fun m => (m.intentList, m.intercept)",
                    "([" + ", ".join("none" if x is None else f"some (s {lit(x)})" for x in (c["intent_list"] if k == "classifier" else []))
                    + "], some [" + ", ".join(f"({x.numerator} / {x.denominator} : ℚ)" for x in (c["intercept"] if k == "classifier" else [])) + "])"),
                "featurizer": ("fun m => (m.tfidfVectorizer, m.cooccurrenceVectorizer)",
                    f'(s {lit(str(c.get("tfidf_vectorizer")))}, '
                    + ("none" if c.get("cooccurrence_vectorizer") is None else f'some (s {lit(c["cooccurrence_vectorizer"])})') + ")"),
                "tfidf": ("fun m => (m.idfDiag, m.vocab)",
                    "([" + ", ".join(f"({x.numerator} / {x.denominator} : ℚ)" for x in (dict(c["vectorizer"])["idf_diag"] if k == "tfidf" else []))
                    + "], [" + ", ".join(f"(s {lit(a)}, {b})" for a, b in (dict(c["vectorizer"])["vocab"] if k == "tfidf" else [])) + "])"),
                "cooc": ("fun m => m.wordPairs",
                    "[" + ", ".join(f"({a}, (s {lit(b[0])}, s {lit(b[1])}))" for a, b in (c["word_pairs"] if k == "cooc" else [])) + "]"),
                "slotFiller": ("fun m => (m.languageCode, m.slotNameMapping)",
                    f'(s {lit(str(c.get("language_code")))}, '
                    "[" + ", ".join(f"(s {lit(a)}, s {lit(b)})" for a, b in (c["slot_name_mapping"] if k == "slotFiller" else [])) + "])"),
            }[k]
            O += [wrap(f"#guard decoded ({dec}) ({pick}) tree{n} ({want})"), ""]
O += ["/-- The files with their places under data/tests/models. -/", "def modelFiles : List (String × Text) :=",
      "  [" + ",\n    ".join(f"({lit(r)},\n      file{i + 1})" if len(r) > 90 else f"({lit(r)}, file{i + 1})" for i, r in enumerate(names)) + "]", ""]
O += ["end Snips.Conformance"]
open(out, "w", encoding="utf-8").write("\n".join(O) + "\n")
print(n, "files")
