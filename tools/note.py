#!/usr/bin/env python3
"""note.py Cnn status "note": update tools/notes.json."""
import json, os, sys
p = os.path.join(os.path.dirname(os.path.abspath(__file__)), "notes.json")
n = json.load(open(p))
n[sys.argv[1]] = [sys.argv[2], sys.argv[3]]
json.dump(dict(sorted(n.items())), open(p, "w"), indent=0, ensure_ascii=False)
