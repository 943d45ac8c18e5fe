__pycache__/
.lake/
__pycache__/
