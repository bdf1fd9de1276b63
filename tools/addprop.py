#!/usr/bin/env python3
"""Append property entries read from standard input to gen_properties.py."""
import os, sys
p = os.path.join(os.path.dirname(os.path.abspath(__file__)), "gen_properties.py")
s = open(p).read()
mark = '\nif __name__ == "__main__":'
s = s.replace(mark, "\n" + sys.stdin.read().strip() + "\n" + mark, 1)
open(p, "w").write(s)
