/lean/.lake/
