.lake/
*.olean
__pycache__/
